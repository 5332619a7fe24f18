import Verif.Spec.DiscreteMemory
import Mathlib.Tactic.Linarith
import Mathlib.Algebra.Order.BigOperators.Group.Finset
/-
C123: the memory of discrete operators.
-/
namespace Verif.DMem

theorem elements {du : Bool} {op : DOp} (h : Assembled op) :
    ∃ s : Finset Nat, op.elementaryOperators du = .ok (.set s) ∧ ∀ i, i ∈ s ↔ Occurs i op := by
  induction h with
  | elementary k =>
    refine ⟨{k}, rfl, fun i => ?_⟩
    rw [Finset.mem_singleton]
    exact ⟨fun h => h ▸ .here, fun h => by cases h; rfl⟩
  | inverse k =>
    refine ⟨{k}, rfl, fun i => ?_⟩
    rw [Finset.mem_singleton]
    exact ⟨fun h => h ▸ .inverse, fun h => by cases h; rfl⟩
  | scaled _ ih =>
    obtain ⟨s, h1, h2⟩ := ih
    exact ⟨s, h1, fun i => (h2 i).trans ⟨.scaled, fun h => by cases h; assumption⟩⟩
  | sum _ _ iha ihb =>
    obtain ⟨s, h1, h2⟩ := iha
    obtain ⟨t, h3, h4⟩ := ihb
    refine ⟨s ∪ t, ?_, fun i => ?_⟩
    · simp only [DOp.elementaryOperators, h1, h3, PyColl.union]
    · rw [Finset.mem_union, h2, h4]
      exact ⟨fun h => h.elim .sumLeft .sumRight, fun h => by cases h <;> [left; right] <;> assumption⟩
  | product _ _ iha ihb =>
    obtain ⟨s, h1, h2⟩ := iha
    obtain ⟨t, h3, h4⟩ := ihb
    refine ⟨s ∪ t, ?_, fun i => ?_⟩
    · simp only [DOp.elementaryOperators, h1, h3, PyColl.union]
    · rw [Finset.mem_union, h2, h4]
      exact ⟨fun h => h.elim .productLeft .productRight, fun h => by cases h <;> [left; right] <;> assumption⟩

theorem memory_size {store : Nat → Elementary} {op : DOp} {kb : Nat → Rat} (h : Sizes store op kb) {i : Nat} (hi : Occurs i op) :
    (store i).memory = .ok (kb i) := by
  have := h i hi
  match hs : store i, this with
  | .dense r c s, h => simp only [Elementary.memory]; congr 1; push_cast; linarith
  | .sparse d x p, h => simp only [Elementary.memory]; congr 1; push_cast; linarith
  | .hmatrix k, h => simp only [Elementary.memory]; rw [h]

theorem sumMemory_eq {store : Nat → Elementary} {kb : Nat → Rat} {l : List Nat} (h : ∀ i ∈ l, (store i).memory = .ok (kb i)) (acc : Rat) :
    sumMemory store l acc = .ok (acc + (l.map kb).sum) := by
  induction l generalizing acc with
  | nil => simp [sumMemory]
  | cons i l ih =>
    unfold sumMemory
    rw [h i (by simp)]
    dsimp only
    rw [ih fun k hk => h k (by simp [hk])]
    simp [add_assoc]

/-- **C123, partial.**  The memory of an operator made of assembled ones is the sum of the sizes of the distinct objects that occur in it,
each counted once, however often it is used, in whichever order the set is enumerated. -/
theorem C123_memory_partial (du : Bool) (store : Nat → Elementary) (op : DOp) (kb : Nat → Rat) (ha : Assembled op) (hk : Sizes store op kb)
    (s : Finset Nat) (hs : ∀ i, i ∈ s ↔ Occurs i op) (r : Except Exn Rat) : op.Memory du store r ↔ r = .ok (∑ i ∈ s, kb i) := by
  obtain ⟨t, h1, h2⟩ := elements (du := du) ha
  have hst : t = s := Finset.ext fun i => (h2 i).trans (hs i).symm
  subst hst
  have key : ∀ order : List Nat, order.Nodup → (∀ i, i ∈ order ↔ i ∈ t) → sumMemory store order 0 = .ok (∑ i ∈ t, kb i) := by
    intro order hn hm
    rw [sumMemory_eq (fun i hi => memory_size hk ((hs i).1 ((hm i).1 hi))), zero_add]
    have : t = order.toFinset := Finset.ext fun i => by rw [List.mem_toFinset, hm]
    rw [this, List.sum_toFinset _ hn]
  unfold DOp.Memory
  rw [h1]
  dsimp only
  constructor
  · rintro ⟨order, hn, hm, rfl⟩
    exact key order hn hm
  · rintro rfl
    exact ⟨t.toList, t.nodup_toList, fun i => Finset.mem_toList, (key _ t.nodup_toList fun i => Finset.mem_toList).symm⟩

/-- **C123 (algebra).**  Scaling does not change the memory, a sum and a product of the same operators have the same, an operator added to
itself or multiplied by itself counts once, and the memory of a sum lies between that of one operand and that of both together. -/
theorem C123_algebra (du : Bool) (store : Nat → Elementary) (a b : DOp) (kb : Nat → Rat) (ha : Assembled a) (hb : Assembled b)
    (hk : Sizes store (.sum a b) kb) (hpos : ∀ i, 0 ≤ kb i) :
    ∃ ma mb mab : Rat, (∀ r, a.Memory du store r ↔ r = .ok ma) ∧ (∀ r, b.Memory du store r ↔ r = .ok mb) ∧
      (∀ r, (DOp.sum a b).Memory du store r ↔ r = .ok mab) ∧ (∀ r, (DOp.product a b).Memory du store r ↔ r = .ok mab) ∧
      (∀ r, (DOp.scaled a).Memory du store r ↔ r = .ok ma) ∧ (∀ r, (DOp.sum a a).Memory du store r ↔ r = .ok ma) ∧
      (∀ r, (DOp.product a a).Memory du store r ↔ r = .ok ma) ∧ ma ≤ mab ∧ mb ≤ mab ∧ mab ≤ ma + mb := by
  obtain ⟨s, _, h1⟩ := elements (du := du) ha
  obtain ⟨t, _, h2⟩ := elements (du := du) hb
  have ka : Sizes store a kb := fun i hi => hk i (.sumLeft hi)
  have kb' : Sizes store b kb := fun i hi => hk i (.sumRight hi)
  have occ : ∀ i, i ∈ s ∪ t ↔ Occurs i (DOp.sum a b) := fun i => by
    rw [Finset.mem_union, h1, h2]
    exact ⟨fun h => h.elim .sumLeft .sumRight, fun h => by cases h <;> [left; right] <;> assumption⟩
  have occ' : ∀ i, i ∈ s ∪ t ↔ Occurs i (DOp.product a b) := fun i => by
    rw [Finset.mem_union, h1, h2]
    exact ⟨fun h => h.elim .productLeft .productRight, fun h => by cases h <;> [left; right] <;> assumption⟩
  refine ⟨∑ i ∈ s, kb i, ∑ i ∈ t, kb i, ∑ i ∈ s ∪ t, kb i, C123_memory_partial du store a kb ha ka s h1,
    C123_memory_partial du store b kb hb kb' t h2, C123_memory_partial du store _ kb (.sum ha hb) hk _ occ,
    C123_memory_partial du store _ kb (.product ha hb) (fun i hi => hk i ((occ i).1 ((occ' i).2 hi))) _ occ',
    C123_memory_partial du store _ kb (.scaled ha) (fun i hi => ka i (by cases hi; assumption)) s
      (fun i => (h1 i).trans ⟨.scaled, fun h => by cases h; assumption⟩),
    C123_memory_partial du store _ kb (.sum ha ha) (fun i hi => ka i (by cases hi <;> assumption)) s
      (fun i => (h1 i).trans ⟨.sumLeft, fun h => by cases h <;> assumption⟩),
    C123_memory_partial du store _ kb (.product ha ha) (fun i hi => ka i (by cases hi <;> assumption)) s
      (fun i => (h1 i).trans ⟨.productLeft, fun h => by cases h <;> assumption⟩), ?_, ?_, ?_⟩
  · exact Finset.sum_le_sum_of_subset_of_nonneg Finset.subset_union_left fun i _ _ => hpos i
  · exact Finset.sum_le_sum_of_subset_of_nonneg Finset.subset_union_right fun i _ _ => hpos i
  · rw [← Finset.sum_union_inter]
    exact le_add_of_nonneg_right (Finset.sum_nonneg fun i _ => hpos i)

theorem trivial_dict {du : Bool} {op : DOp} (h : Trivial op) : op.elementaryOperators du = .ok .emptyDict := by
  induction h with
  | zero => rfl
  | rankOne => rfl
  | scaled _ ih => exact ih

theorem union_dict_left (x : PyColl) : PyColl.emptyDict.union false x = .error .typeError := by cases x <;> rfl
theorem union_dict_right (x : PyColl) : x.union false .emptyDict = .error .typeError := by cases x <;> rfl

theorem trivial_error {op : DOp} (h : HasTrivialOperand op) : ∃ e, op.elementaryOperators false = .error e := by
  induction h with
  | @sumLeft a b h | @productLeft a b h =>
    simp only [DOp.elementaryOperators, trivial_dict h]
    split
    · exact ⟨_, rfl⟩
    · exact ⟨_, union_dict_left _⟩
  | @sumRight a b h | @productRight a b h =>
    simp only [DOp.elementaryOperators, trivial_dict h]
    split
    · exact ⟨_, rfl⟩
    · exact ⟨_, union_dict_right _⟩
  | scaled _ ih => exact ih
  | inSumLeft _ ih | inProductLeft _ ih =>
    obtain ⟨e, he⟩ := ih
    simp only [DOp.elementaryOperators, he]
    exact ⟨e, rfl⟩
  | inSumRight _ ih | inProductRight _ ih =>
    obtain ⟨e, he⟩ := ih
    simp only [DOp.elementaryOperators, he]
    split <;> exact ⟨_, rfl⟩

/-- **C123, counterexample.**  `elementary_operators` of zero and rank-one operators returns `{}`, which is a dictionary: alone they have
memory 0, but (up to Python 3.8) every operator of which one is a summand or factor raises an exception. -/
theorem C123_counterexample_zero (store : Nat → Elementary) (op : DOp) :
    (Trivial op → ∀ r, op.Memory false store r ↔ r = .ok 0) ∧
    (HasTrivialOperand op → ∃ e, ∀ r, op.Memory false store r ↔ r = .error e) := by
  refine ⟨fun h r => ?_, fun h => ?_⟩
  · unfold DOp.Memory; rw [trivial_dict h]
  · obtain ⟨e, he⟩ := trivial_error h
    exact ⟨e, fun r => by unfold DOp.Memory; rw [he]⟩

/-- **C123, counterexample.**  From Python 3.9 on, a zero operator plus an assembled one still raises a `TypeError`; so do those before. -/
theorem C123_counterexample_sum (du : Bool) (store : Nat → Elementary) (i : Nat) (r : Except Exn Rat) :
    (DOp.sum .zero (.elementary i)).Memory du store r ↔ r = .error .typeError := Iff.rfl

/-- **C123 (errors).**  The memory of blocked operators and of inverses of SciPy matrices is not available; that of an operator in which a
nonlocal operator occurs that is no H-matrix raises a `ValueError`. -/
theorem C123_errors (du : Bool) (store : Nat → Elementary) :
    (∀ r, DOp.blocked.Memory du store r ↔ r = .error .notImplemented) ∧
    (∀ r, DOp.inverseOfMatrix.Memory du store r ↔ r = .error .attributeError) ∧
    (∀ op i, Assembled op → Occurs i op → store i = .otherNonlocal → ∀ r, op.Memory du store r ↔ r = .error .valueError) := by
  refine ⟨fun r => Iff.rfl, fun r => Iff.rfl, fun op i ha hi hs r => ?_⟩
  obtain ⟨t, h1, h2⟩ := elements (du := du) ha
  have key : ∀ (l : List Nat) acc, i ∈ l → sumMemory store l acc = .error .valueError := by
    intro l
    induction l with
    | nil => intro _ h; exact absurd h List.not_mem_nil
    | cons k l ih =>
      intro acc hm
      unfold sumMemory
      rcases List.mem_cons.1 hm with h | h
      · subst h; rw [hs]; rfl
      · split
        · rename_i e he
          cases hk : store k <;> rw [hk] at he <;> simp only [Elementary.memory] at he <;> cases he
          rfl
        · exact ih _ h
  unfold DOp.Memory
  rw [h1]
  dsimp only
  constructor
  · rintro ⟨order, _, hm, rfl⟩
    exact key order 0 ((hm i).2 ((h2 i).2 hi))
  · rintro rfl
    exact ⟨t.toList, t.nodup_toList, fun i => Finset.mem_toList, (key _ 0 (Finset.mem_toList.2 ((h2 i).2 hi))).symm⟩

/-- `2 * A * B + A` with `A` dense, 32 x 32, real, and `B` sparse. -/
example : ∀ r, (DOp.sum (.product (.scaled (.elementary 0)) (.elementary 1)) (.elementary 0)).Memory false
    (fun i => if i = 0 then .dense 32 32 8 else .sparse 800 400 132) r ↔ r = .ok (8 + 1332 / 1024) := by
  intro r
  rw [C123_memory_partial false _ _ (fun i => if i = 0 then 8 else 1332 / 1024)
    (.sum (.product (.scaled (.elementary 0)) (.elementary 1)) (.elementary 0)) ?_ {0, 1} ?_ r]
  · rw [Finset.sum_pair (by norm_num)]; simp
  · intro i hi
    by_cases h : i = 0
    · subst h; norm_num
    · simp only [if_neg h]; norm_num
  · intro i
    simp only [Finset.mem_insert, Finset.mem_singleton]
    constructor
    · rintro (rfl | rfl)
      · exact .sumRight .here
      · exact .sumLeft (.productRight .here)
    · intro h
      rcases h with _ | _ | _ | h | h
      · rcases h with _ | _ | _ | _ | _ | h | h
        · rcases h with _ | _ | h
          cases h; exact Or.inl rfl
        · cases h; exact Or.inr rfl
      · cases h; exact Or.inl rfl

end Verif.DMem
