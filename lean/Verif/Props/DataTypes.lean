import Verif.Spec.DataTypes
import Mathlib.Tactic.NormNum
import Mathlib.Tactic.Linarith
import Mathlib.Tactic.Positivity
/-
C126: types of blocked operators and of vectors made from parts.
-/
namespace Verif.DataTypes

theorem single_double {r : ℚ} : Single r → Double r := by
  rintro ⟨m, e, hm, h1, h2, rfl⟩
  exact ⟨m, e, lt_trans hm (by norm_num), by omega, by omega, rfl⟩

theorem single_zero : Single 0 := ⟨0, 0, by norm_num, by norm_num, by norm_num, by norm_num⟩

theorem single_one : Single 1 := ⟨1, 0, by norm_num, by norm_num, by norm_num, by norm_num⟩

/-- A number of double precision that is not of single precision. -/
def big : ℚ := 2 ^ 29 * 2 ^ (971 : ℤ)

theorem double_big : Double big := by
  refine ⟨2 ^ 29, 971, by norm_num, by norm_num, by norm_num, ?_⟩
  simp only [big]
  push_cast
  rfl

theorem not_single_big : ¬ Single big := by
  rintro ⟨m, e, hm, h1, h2, h⟩
  have hm' : (m : ℚ) < 2 ^ 24 := by
    have := lt_of_le_of_lt (le_abs_self m) hm
    exact_mod_cast this
  have he : (2 : ℚ) ^ e ≤ 2 ^ (104 : ℤ) := zpow_le_zpow_right₀ (by norm_num) h2
  have hpos : (0 : ℚ) < 2 ^ e := by positivity
  have h104 : (2 : ℚ) ^ (104 : ℤ) < 2 ^ (971 : ℤ) := zpow_lt_zpow_right₀ (by norm_num) (by norm_num)
  have hlt : (m : ℚ) * 2 ^ e < 2 ^ 24 * 2 ^ e := mul_lt_mul_of_pos_right hm' hpos
  have : big < 2 ^ 29 * 2 ^ (971 : ℤ) := by
    rw [h]
    refine lt_of_lt_of_le hlt ?_
    have h3 : (2 : ℚ) ^ e ≤ 2 ^ (971 : ℤ) := le_trans he h104.le
    have h4 : (0 : ℚ) < 2 ^ (971 : ℤ) := by positivity
    generalize (2 : ℚ) ^ e = a at h3 ⊢
    generalize (2 : ℚ) ^ (971 : ℤ) = b at h3 h4 ⊢
    nlinarith
  exact lt_irrefl _ this

theorem fits_of {a b : DType} (h : promote a b = b) : Fits a b := by
  intro z hz
  cases a <;> cases b <;> simp [promote] at h <;> simp only [Holds] at hz ⊢ <;>
    first
      | exact hz
      | exact ⟨single_double hz.1, hz.2⟩
      | exact ⟨single_double hz.1, single_double hz.2⟩
      | exact ⟨hz.1, by rw [hz.2]; exact single_zero⟩
      | exact ⟨single_double hz.1, by rw [hz.2]; exact single_double single_zero⟩
      | exact ⟨hz.1, by rw [hz.2]; exact single_double single_zero⟩

theorem of_fits {a b : DType} (h : Fits a b) : promote a b = b := by
  have one : ∀ a : DType, Holds a (1, 0) := by
    intro a
    cases a <;> simp only [Holds] <;>
      simp [single_one, single_zero, single_double single_one, single_double single_zero]
  have h1 := h (big, 0)
  have h2 := h (1, 1)
  have d0 := single_double single_zero
  have d1 := single_double single_one
  cases a <;> cases b <;> simp only [promote] <;> exfalso <;>
    simp [Holds, not_single_big, double_big, single_one, single_zero, d0, d1] at h1 h2

theorem fits_iff (a b : DType) : Fits a b ↔ promote a b = b := ⟨of_fits, fits_of⟩

theorem promote_self (a : DType) : promote a a = a := by cases a <;> rfl
theorem promote_comm (a b : DType) : promote a b = promote b a := by cases a <;> cases b <;> rfl
theorem promote_assoc (a b c : DType) : promote (promote a b) c = promote a (promote b c) := by
  cases a <;> cases b <;> cases c <;> rfl

theorem fits_promote_iff (a b c : DType) : Fits (promote a b) c ↔ Fits a c ∧ Fits b c := by
  simp only [fits_iff]
  cases a <;> cases b <;> cases c <;> simp [promote]

/-- The least type of a list, characterised by what it fits into. -/
theorem least_iff {types : List DType} {d : DType} : Least types d ↔ ∀ b, Fits d b ↔ ∀ a ∈ types, Fits a b := by
  constructor
  · rintro ⟨h1, h2⟩ b
    exact ⟨fun h a ha z hz => h z (h1 a ha z hz), h2 b⟩
  · intro h
    exact ⟨(h d).1 fun _ hz => hz, fun b => (h b).2⟩

theorem least_foldl (items : List DType) (d : DType) : Least (d :: items) (items.foldl promote d) := by
  rw [least_iff]
  induction items generalizing d with
  | nil => simp
  | cons a items ih =>
    intro b
    rw [List.foldl_cons, ih (promote d a) b]
    simp [fits_promote_iff, and_assoc]

theorem checkType_name (d : DType) : checkType (some d.name) = .ok d := by
  cases d <;> simp [checkType, DType.name]

theorem combined_name (a b : DType) : combinedType (some a.name) (some b.name) = .ok (promote a b) := by
  simp [combinedType, checkType_name, bind, Except.bind, pure, Except.pure]

theorem foldlM_combined (items : List DType) (d : DType) :
    items.foldlM (fun d obj => combinedType (some d.name) (some obj.name)) d = .ok (items.foldl promote d) := by
  induction items generalizing d with
  | nil => rfl
  | cons a items ih =>
    rw [List.foldlM_cons, combined_name, List.foldl_cons, ← ih]
    rfl

theorem blocks_dtype (types : List (Option DType)) :
    (Blocked.blocks types).dtype = .ok ((fill types).foldl promote .float64) := foldlM_combined _ _

theorem fits_complex {a b : DType} (h : Fits a b) (ha : a.isComplex = true) : b.isComplex = true := by
  rw [fits_iff] at h
  cases a <;> cases b <;> simp_all [promote, DType.isComplex]

theorem summand_fits {op x r : DType} (h1 : Fits op r) (h2 : Fits x r) (h3 : Fits .float64 r) : Fits (summand op x) r := by
  rw [fits_iff] at *
  cases op <;> cases x <;> cases r <;> simp_all [promote, summand, appliedTo, DType.isComplex]

theorem adds (ops : List DType) (x r : DType) (h : ∀ op ∈ ops, Fits op r) (h2 : Fits x r) (h3 : Fits .float64 r) :
    (ops.forM fun op => addInPlace r (summand op x)) = .ok () := by
  induction ops with
  | nil => rfl
  | cons op ops ih =>
    have hs := summand_fits (h op (by simp)) h2 h3
    have : addInPlace r (summand op x) = .ok () := by
      unfold addInPlace
      split
      · next hc => exact absurd (fits_complex hs hc.1) hc.2
      · rfl
    have hi := ih fun o ho => h o (by simp [ho])
    simp only [List.forM, this, bind, Except.bind]
    exact hi

/-- `combined_type` gives the least type that holds the numbers of both types, in either order; `None` stands for `float64`. -/
theorem C126_combined (a b : DType) :
    (∃ d, combinedType (some a.name) (some b.name) = .ok d ∧ Least [a, b] d) ∧
    combinedType (some a.name) (some b.name) = combinedType (some b.name) (some a.name) ∧
    combinedType none (some b.name) = combinedType (some "float64") (some b.name) := by
  refine ⟨⟨promote a b, combined_name a b, ?_⟩, ?_, ?_⟩
  · exact least_foldl [b] a
  · rw [combined_name, combined_name, promote_comm]
  · simp [combinedType, checkType]

/-- Exactly the four names (and `None`) are accepted. -/
theorem C126_check (name : Option String) :
    (∀ d, checkType name = .ok d ↔ name.getD "float64" = d.name) ∧
    ((∀ d : DType, name.getD "float64" ≠ d.name) →
      checkType name = .error (.valueError ("Incorrect type (" ++ name.getD "float64" ++ ")"))) := by
  generalize hv : name.getD "float64" = v
  have hc : checkType name = checkType (some v) := by simp [checkType, hv]
  rw [hc]
  constructor
  · intro d
    constructor
    · intro h
      simp only [checkType, Option.getD_some] at h
      split_ifs at h with h1 h2 h3 h4 <;> cases h <;> simp_all [DType.name]
    · rintro rfl
      exact checkType_name d
  · intro h
    have h1 := h .float32
    have h2 := h .float64
    have h3 := h .complex64
    have h4 := h .complex128
    simp only [DType.name] at h1 h2 h3 h4
    simp [checkType, h1, h2, h3, h4]

/-- The type of a blocked discrete operator is the least double precision type that holds the numbers of all its blocks and factors; partial: factors
of type `complex` must have an imaginary part. -/
theorem C126_dtype_partial (op : Blocked) (h : op.ProperNumbers) :
    ∃ d, op.dtype = .ok d ∧ Least (.float64 :: op.types) d := by
  induction op with
  | blocks types => exact ⟨_, blocks_dtype types, least_foldl _ _⟩
  | sum op1 op2 ih1 ih2 =>
    obtain ⟨d1, e1, l1⟩ := ih1 h.1
    obtain ⟨d2, e2, l2⟩ := ih2 h.2
    refine ⟨promote d1 d2, by simp [Blocked.dtype, e1, e2, combined_name, bind, Except.bind], ?_⟩
    rw [least_iff] at *
    intro b
    rw [fits_promote_iff, l1, l2]
    simp only [Blocked.types, List.mem_cons, List.mem_append]
    grind
  | product op1 op2 ih1 ih2 =>
    obtain ⟨d1, e1, l1⟩ := ih1 h.1
    obtain ⟨d2, e2, l2⟩ := ih2 h.2
    refine ⟨promote d1 d2, by simp [Blocked.dtype, e1, e2, combined_name, bind, Except.bind], ?_⟩
    rw [least_iff] at *
    intro b
    rw [fits_promote_iff, l1, l2]
    simp only [Blocked.types, List.mem_cons, List.mem_append]
    grind
  | scaled op alpha imaginary ih =>
    obtain ⟨d, e, l⟩ := ih h.1
    have ha := h.2
    rw [least_iff] at l
    cases imaginary with
    | true =>
      refine ⟨.complex128, by simp [Blocked.dtype], ?_⟩
      simp only [if_true] at ha
      constructor
      · intro a _
        rw [fits_iff]
        cases a <;> rfl
      · intro b hb
        exact hb _ (by simp [Blocked.types, ha])
    | false =>
      refine ⟨d, by simp [Blocked.dtype, e], ?_⟩
      rw [least_iff]
      intro b
      rw [l]
      simp only [Bool.false_eq_true, if_false] at ha
      simp only [Blocked.types, List.mem_cons, List.mem_append, ha]
      grind

/-- An operator applied to a vector of one of the four types raises no error of types, and the result has the least double precision type that holds
the numbers of the vector and of all blocks and factors: nothing is rounded to single precision, no imaginary part is lost. -/
theorem C126_apply (op : Blocked) (x : DType) :
    ∃ r, op.apply x.name = .ok r ∧ Least (.float64 :: x :: op.types) r := by
  induction op generalizing x with
  | blocks types =>
    refine ⟨promote ((fill types).foldl promote .float64) x, ?_, ?_⟩
    · have hl := least_foldl (fill types) .float64
      set d := (fill types).foldl promote .float64 with hd
      have hf : ∀ c, Fits c d → Fits c (promote d x) := fun c h z hz =>
        ((fits_promote_iff d x (promote d x)).1 fun _ hz => hz).1 z (h z hz)
      have := adds (fill types) x (promote d x) (fun op ho => hf op (hl.1 op (by simp [ho])))
        ((fits_promote_iff d x (promote d x)).1 fun _ hz => hz).2 (hf _ (hl.1 _ (by simp)))
      simp only [Blocked.apply, blocks_dtype, ← hd, bind, Except.bind, combined_name, checkType_name, this]
      rfl
    · rw [least_iff]
      intro b
      rw [fits_promote_iff, least_iff.1 (least_foldl (fill types) .float64)]
      simp only [Blocked.types, fill, List.mem_cons]
      grind
  | sum op1 op2 ih1 ih2 =>
    obtain ⟨d1, e1, l1⟩ := ih1 x
    obtain ⟨d2, e2, l2⟩ := ih2 x
    refine ⟨promote d1 d2, by simp [Blocked.apply, e1, e2, bind, Except.bind, pure, Except.pure], ?_⟩
    rw [least_iff] at *
    intro b
    rw [fits_promote_iff, l1, l2]
    simp only [Blocked.types, List.mem_cons, List.mem_append]
    grind
  | product op1 op2 ih1 ih2 =>
    obtain ⟨d2, e2, l2⟩ := ih2 x
    obtain ⟨d1, e1, l1⟩ := ih1 d2
    refine ⟨d1, by simp [Blocked.apply, e1, e2, bind, Except.bind], ?_⟩
    rw [least_iff] at *
    intro b
    rw [l1]
    have := l2 b
    simp only [Blocked.types, List.mem_cons, List.mem_append] at *
    grind
  | scaled op alpha imaginary ih =>
    obtain ⟨d, e, l⟩ := ih x
    refine ⟨promote alpha d, by simp [Blocked.apply, e, bind, Except.bind, pure, Except.pure], ?_⟩
    rw [least_iff] at *
    intro b
    rw [fits_promote_iff, l]
    simp only [Blocked.types, List.mem_cons, List.mem_append]
    grind

/-- A block whose type holds only real numbers is never applied to a vector with imaginary parts; what it is applied to holds the real and the
imaginary parts of the numbers of the vector, and all of a real vector; a block of a complex type is applied to the vector itself. -/
theorem C126_real_blocks (op x : DType) :
    ((∀ z, Holds op z → z.2 = 0) → (∀ z, Holds (appliedTo op x) z → z.2 = 0) ∧
      ∀ z, Holds x z → Holds (appliedTo op x) (z.1, 0) ∧ Holds (appliedTo op x) (z.2, 0)) ∧
    (Holds op (0, 1) → appliedTo op x = x) := by
  have d0 := single_double single_zero
  have d1 := single_double single_one
  constructor
  · intro h
    have h1 := h (0, 1)
    constructor
    · intro z hz
      cases op <;> cases x <;> simp_all [Holds, appliedTo, DType.isComplex, single_one, single_zero]
    · intro z hz
      cases op <;> cases x <;> simp_all [Holds, appliedTo, DType.isComplex, single_one, single_zero]
  · intro h
    cases op <;> cases x <;> simp_all [Holds, appliedTo, DType.isComplex]

/-- What is added for a block has the least type that holds the numbers of the block and of the vector. -/
theorem C126_summand (op x : DType) : Least [op, x] (summand op x) := by
  have : summand op x = promote op x := by cases op <;> cases x <;> rfl
  rw [this]
  exact least_foldl [x] op

/-- Vectors of other types (integers, say) are refused by every operator. -/
theorem C126_errors (op : Blocked) (x : String) (h : ∀ d : DType, x ≠ d.name) :
    op.apply x = .error (.valueError ("Incorrect type (" ++ x ++ ")")) := by
  have hc : checkType (some x) = .error (.valueError ("Incorrect type (" ++ x ++ ")")) := (C126_check (some x)).2 h
  induction op with
  | blocks types => simp [Blocked.apply, blocks_dtype, combinedType, checkType_name, hc, bind, Except.bind]
  | sum op1 op2 ih1 _ => simp [Blocked.apply, ih1, bind, Except.bind]
  | product op1 op2 _ ih2 => simp [Blocked.apply, ih2, bind, Except.bind]
  | scaled op alpha imaginary ih => simp [Blocked.apply, ih, bind, Except.bind]

/-- The vectors that are made from several functions hold the numbers of all of them, whatever their order. -/
theorem C126_lists (items : List DType) :
    Least (.float64 :: items) (listType items) ∧ (∀ d, inputType items = some d → Least items d) ∧
    (items ≠ [] → (inputType items).isSome) ∧
    ∀ other, items.Perm other → listType other = listType items ∧ inputType other = inputType items := by
  have least_eq : ∀ {l : List DType} {a b : DType}, Least l a → Least l b → a = b := by
    intro l a b ha hb
    have h1 := of_fits (ha.2 b hb.1)
    have h2 := of_fits (hb.2 a ha.1)
    rw [promote_comm] at h2
    rw [← h1, h2]
  have in_least : ∀ (l : List DType) d, inputType l = some d → Least l d := by
    intro l d h
    cases l with
    | nil => simp [inputType] at h
    | cons a l =>
      simp only [inputType, Option.some.injEq] at h
      rw [List.foldl_cons, promote_self] at h
      rw [← h]
      exact least_foldl l a
  have some_in : ∀ l : List DType, l ≠ [] → ∃ d, inputType l = some d := by
    intro l h
    cases l with
    | nil => exact absurd rfl h
    | cons a l => exact ⟨_, rfl⟩
  refine ⟨least_foldl items .float64, in_least items, fun h => ?_, fun other hp => ⟨?_, ?_⟩⟩
  · obtain ⟨d, e⟩ := some_in items h
    simp [e]
  · refine least_eq (l := .float64 :: items) ?_ (least_foldl items _)
    have := least_foldl other .float64
    rw [least_iff] at this ⊢
    intro b
    rw [listType, this b]
    simp [hp.mem_iff]
  · by_cases hn : items = []
    · subst hn
      rw [List.nil_perm] at hp
      rw [hp]
    · have hn' : other ≠ [] := fun h => hn (by rw [h] at hp; exact List.perm_nil.1 hp)
      obtain ⟨d, e⟩ := some_in items hn
      obtain ⟨d', e'⟩ := some_in other hn'
      rw [e, e']
      congr 1
      refine least_eq (l := items) ?_ (in_least _ _ e)
      have := in_least _ _ e'
      rw [least_iff] at this ⊢
      intro b
      rw [this b]
      simp [hp.mem_iff]

/-- A rank-one operator of two vectors of a single precision complex type has a type that does not hold its numbers. -/
theorem C126_counterexample_rank_one : ¬ Fits .complex64 (rankOneType .complex64 .complex64) := by
  intro h
  have := of_fits h
  simp [rankOneType, promote] at this

/-- An operator scaled by `2 + 0j` has a real type, but makes complex vectors from real ones. -/
theorem C126_counterexample_scaled :
    (Blocked.scaled (.blocks [some .float64]) .complex128 false).dtype = .ok .float64 ∧
    (Blocked.scaled (.blocks [some .float64]) .complex128 false).apply "float64" = .ok .complex128 := by
  constructor <;> rfl

/-- A product of a complex and a scaled real operator applied to a vector of single precision. -/
example : let op := Blocked.product (.blocks [some .complex64, none]) (.scaled (.blocks [some .float32, none]) .float64 false)
    op.ProperNumbers ∧ op.dtype = .ok .complex128 ∧ op.apply "float32" = .ok .complex128 ∧ op.apply "int64" ≠ .ok .float64 := by
  refine ⟨⟨trivial, trivial, rfl⟩, rfl, rfl, ?_⟩
  simp [C126_errors (Blocked.product _ _) "int64" (by intro d; cases d <;> simp [DType.name])]

end Verif.DataTypes
