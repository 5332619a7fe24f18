import Verif.Spec.NumpyEigen
import Mathlib.Tactic.Ring
import Mathlib.Tactic.Linarith
/-
C122: arrays between NumPy and Eigen.
-/
namespace Verif.NpEigen
open Verif.HMat

theorem cast_typed {x : NdArray} (h : Typed x) {target : DType} (ht : x.dtype = target) (idx : List Nat) :
    cast target (x.entry idx) = x.entry idx := by
  subst ht
  unfold cast
  split
  · rename_i heq
    exact Complex.ext rfl (by rw [Complex.ofReal_im]; exact (h heq _).symm)
  · rfl

theorem fortran_matrix {x : NdArray} {m n : Nat} {s t : Int} (hs : x.shape = [m, n]) (ht : x.strides = [s, t]) (hm : 0 < m) (hn : 0 < n)
    (h : x.fortran = true) {i j : Nat} (hi : i < m) (hj : j < n) : address x.strides [i, j] = ((j * m + i : Nat) : Int) := by
  unfold NdArray.fortran at h
  rw [hs, ht] at h
  have h0 : ([m, n] : List Nat).contains 0 = false := by
    simp only [List.contains_cons, List.contains_nil, Bool.or_false, Bool.or_eq_false_iff, beq_eq_false_iff_ne, ne_eq]
    omega
  rw [h0] at h
  simp only [fortranFrom, Bool.false_or, Bool.and_true, Bool.and_eq_true, Bool.or_eq_true, decide_eq_true_eq] at h
  rw [ht]
  obtain ⟨h1, h2⟩ := h
  simp only [address, add_zero]
  have e1 : s * (i : Int) = i := by
    rcases h1 with h | h
    · have : i = 0 := by omega
      subst this; simp
    · rw [h]; ring
  have e2 : t * (j : Int) = (m : Int) * j := by
    rcases h2 with h | h
    · have : j = 0 := by omega
      subst this; simp
    · rw [h]; ring
  rw [e1, e2]; push_cast; ring

theorem fortran_vector {x : NdArray} {n : Nat} {s : Int} (hs : x.shape = [n]) (ht : x.strides = [s]) (hn : 0 < n)
    (h : x.fortran = true) {i : Nat} (hi : i < n) : address x.strides [i] = (i : Int) := by
  unfold NdArray.fortran at h
  rw [hs, ht] at h
  have h0 : ([n] : List Nat).contains 0 = false := by
    simp only [List.contains_cons, List.contains_nil, Bool.or_false, beq_eq_false_iff_ne, ne_eq]
    omega
  rw [h0] at h
  simp only [fortranFrom, Bool.false_or, Bool.and_true, Bool.or_eq_true, decide_eq_true_eq] at h
  rw [ht]
  simp only [address, add_zero]
  rcases h with h | h
  · have : i = 0 := by omega
    subst this; simp
  · rw [h]; ring

theorem require_shape (target : DType) (x : NdArray) : (require target x).shape = x.shape := by
  unfold require; split <;> rfl

/-- **C122, partial (matrices to Eigen).**  A two-dimensional array of any strides, including negative and zero ones, any memory and any
type arrives with its shape and its entries, converted to the type asked for; the entries are unchanged if the types agree. -/
theorem C122_to_matrix_partial (target : DType) (x : NdArray) (hst : x.strides.length = x.shape.length) (hty : Typed x)
    (ha : Accepted target x 2) (hs : ∀ m n, x.shape = [m, n] → Small m n) :
    ∃ y, toMatrix target x = .ok y ∧ SameMatrix target x y ∧
      (x.dtype = target → ∀ i j, i < y.rows → j < y.cols → y.e i j = x.entry [i, j]) := by
  obtain ⟨hl, hpos, hw⟩ := ha
  obtain ⟨m, n, hsh⟩ : ∃ m n, x.shape = [m, n] := by
    match hx : x.shape, hl with
    | [m, n], _ => exact ⟨m, n, rfl⟩
  obtain ⟨s, t, hstr⟩ : ∃ s t, x.strides = [s, t] := by
    rw [hsh] at hst
    match hx : x.strides, hst with
    | [m, n], _ => exact ⟨m, n, rfl⟩
  have hm : 0 < m := hpos m (by simp [hsh])
  have hn : 0 < n := hpos n (by simp [hsh])
  have hsm : m < 2 ^ 31 ∧ n < 2 ^ 31 ∧ m * n ≤ 2 ^ 31 := hs m n hsh
  have hwr : (require target x).writeable = true := by
    unfold require
    split
    · rename_i h
      rcases hw with h1 | h1 | h1 | h1
      · exact h1
      · exact absurd h.1 h1
      · rw [h.2.1] at h1; cases h1
      · rw [h.2.2] at h1; cases h1
    · rfl
  have key : ∀ i j, i < m → j < n → (require target x).mem ((require target x).start + ((j * m + i : Nat) : Int)) =
      cast target (x.entry [i, j]) := by
    intro i j hi hj
    unfold require
    split
    · rename_i h
      rw [cast_typed hty h.1]
      unfold NdArray.entry
      rw [fortran_matrix hsh hstr hm hn h.2.1 hi hj]
    · dsimp only
      rw [zero_add, Int.toNat_natCast, hsh]
      have e1 : (j * m + i) % m = i := by rw [Nat.add_comm, Nat.add_mul_mod_self_right, Nat.mod_eq_of_lt hi]
      have e2 : (j * m + i) / m % n = j := by
        rw [Nat.mul_comm, Nat.mul_add_div hm, Nat.div_eq_of_lt hi, Nat.add_zero, Nat.mod_eq_of_lt hj]
      simp only [unravel, e1, e2]
  refine ⟨⟨m, n, fun i j => (require target x).mem ((require target x).start + ((j * m + i : Nat) : Int))⟩, ?_, ⟨hsh, key⟩, ?_⟩
  · unfold toMatrix
    dsimp only
    rw [require_shape, hsh]
    dsimp only
    rw [if_neg (by rw [hwr]; simp), if_neg (by omega), if_pos hsm]
  · intro ht i j hi hj
    rw [← cast_typed hty ht]
    exact key i j hi hj

/-- **C122, partial (vectors to Eigen).** -/
theorem C122_to_vector_partial (target : DType) (x : NdArray) (hst : x.strides.length = x.shape.length) (hty : Typed x)
    (ha : Accepted target x 1) (hs : ∀ n ∈ x.shape, n < 2 ^ 31) :
    ∃ y, toVector target x = .ok y ∧ SameVector target x y ∧ (x.dtype = target → ∀ i, i < y.len → y.e i = x.entry [i]) := by
  obtain ⟨hl, hpos, hw⟩ := ha
  obtain ⟨n, hsh⟩ : ∃ n, x.shape = [n] := by
    match hx : x.shape, hl with
    | [n], _ => exact ⟨n, rfl⟩
  obtain ⟨s, hstr⟩ : ∃ s, x.strides = [s] := by
    rw [hsh] at hst
    match hx : x.strides, hst with
    | [n], _ => exact ⟨n, rfl⟩
  have hn : 0 < n := hpos n (by simp [hsh])
  have hsm := hs n (by simp [hsh])
  have hwr : (require target x).writeable = true := by
    unfold require
    split
    · rename_i h
      rcases hw with h1 | h1 | h1 | h1
      · exact h1
      · exact absurd h.1 h1
      · rw [h.2.1] at h1; cases h1
      · rw [h.2.2] at h1; cases h1
    · rfl
  have key : ∀ i, i < n → (require target x).mem ((require target x).start + (i : Int)) = cast target (x.entry [i]) := by
    intro i hi
    unfold require
    split
    · rename_i h
      rw [cast_typed hty h.1]
      unfold NdArray.entry
      rw [fortran_vector hsh hstr hn h.2.1 hi]
    · dsimp only
      rw [zero_add, Int.toNat_natCast, hsh]
      simp only [unravel, Nat.mod_eq_of_lt hi]
  refine ⟨⟨n, fun i => (require target x).mem ((require target x).start + (i : Int))⟩, ?_, ⟨hsh, key⟩, ?_⟩
  · unfold toVector
    dsimp only
    rw [require_shape, hsh]
    dsimp only
    rw [if_neg (by rw [hwr]; simp), if_neg (by omega), if_pos hsm]
  · intro ht i hi
    rw [← cast_typed hty ht]
    exact key i hi

/-- **C122 (errors).**  Any other array raises an exception: an array of another dimension and a read-only array that would not be copied
a `ValueError`, an array without entries an `IndexError`. -/
theorem C122_errors (target : DType) (x : NdArray) :
    (x.shape.length ≠ 2 → toMatrix target x = .valueError) ∧ (x.shape.length ≠ 1 → toVector target x = .valueError) ∧
    (x.writeable = false → x.dtype = target → x.fortran = true → x.aligned = true →
      toMatrix target x = .valueError ∧ toVector target x = .valueError) ∧
    ((x.writeable = true ∨ x.dtype ≠ target) → 0 ∈ x.shape →
      (x.shape.length = 2 → toMatrix target x = .indexError) ∧ (x.shape.length = 1 → toVector target x = .indexError)) := by
  refine ⟨fun h => ?_, fun h => ?_, fun h1 h2 h3 h4 => ?_, fun hw h0 => ?_⟩
  · unfold toMatrix
    dsimp only
    rw [require_shape]
    match hx : x.shape with
    | [] => rfl
    | [_] => rfl
    | [_, _] => simp [hx] at h
    | _ :: _ :: _ :: _ => rfl
  · unfold toVector
    dsimp only
    rw [require_shape]
    match hx : x.shape with
    | [] => rfl
    | [_] => simp [hx] at h
    | _ :: _ :: _ => rfl
  · have hr : require target x = x := by unfold require; rw [if_pos ⟨h2, h3, h4⟩]
    unfold toMatrix toVector
    rw [hr]
    dsimp only
    constructor
    · split
      · rw [if_pos h1]
      · rfl
    · split
      · rw [if_pos h1]
      · rfl
  · have hwr : (require target x).writeable = true := by
      unfold require
      split
      · rename_i h
        rcases hw with h1 | h1
        · exact h1
        · exact absurd h.1 h1
      · rfl
    constructor
    · intro hl
      unfold toMatrix
      dsimp only
      rw [require_shape]
      match hx : x.shape, hl with
      | [m, n], _ =>
        rw [hx] at h0
        simp only [List.mem_cons, List.not_mem_nil, or_false] at h0
        dsimp only
        rw [if_neg (by rw [hwr]; simp), if_pos (by omega)]
    · intro hl
      unfold toVector
      dsimp only
      rw [require_shape]
      match hx : x.shape, hl with
      | [n], _ =>
        rw [hx] at h0
        simp only [List.mem_cons, List.not_mem_nil, or_false] at h0
        dsimp only
        rw [if_neg (by rw [hwr]; simp), if_pos h0.symm]

/-! ### To NumPy -/

/-- A loop of writes at different addresses. -/
theorem writes {n : Nat} (addr : Nat → Int) (val : Nat → ℂ) (mem : Int → ℂ) (p : Int) :
    ((∀ i < n, addr i ≠ p) → ((List.range n).foldl (fun mem (i : Nat) => Function.update mem (addr i) (val i)) mem) p = mem p) ∧
    ((∀ i < n, ∀ k < n, addr i = addr k → i = k) → ∀ i < n, addr i = p →
      ((List.range n).foldl (fun mem (i : Nat) => Function.update mem (addr i) (val i)) mem) p = val i) := by
  induction n with
  | zero => exact ⟨fun _ => rfl, fun _ i hi => by omega⟩
  | succ n ih =>
    rw [List.range_succ, List.foldl_append]
    simp only [List.foldl_cons, List.foldl_nil]
    constructor
    · intro h
      rw [Function.update_of_ne (h n (by omega)).symm]
      exact ih.1 fun i hi => h i (by omega)
    · intro hinj i hi hp
      by_cases hin : i = n
      · subst hin; rw [← hp, Function.update_self]
      · rw [Function.update_of_ne]
        · exact ih.2 (fun a ha b hb => hinj a (by omega) b (by omega)) i (by omega) hp
        · intro hc
          exact hin (hinj i hi n (by omega) (by rw [hp, hc]))

theorem fill_entry (x : Mx ℂ) (mem : Int → ℂ) {i j : Nat} (hi : i < x.rows) (hj : j < x.cols) :
    fillMatrix x mem (address (fortranStrides 1 [x.rows, x.cols]) [i, j]) = x.e i j := by
  have haddr : ∀ a b : Nat, address (fortranStrides 1 [x.rows, x.cols]) [a, b] = ((a + x.rows * b : Nat) : Int) := by
    intro a b; simp [address, fortranStrides]
  have huniq : ∀ a b c d : Nat, a < x.rows → c < x.rows → a + x.rows * b = c + x.rows * d → a = c ∧ b = d := by
    intro a b c d ha hc h
    have h1 := congrArg (· % x.rows) h
    have h2 := congrArg (· / x.rows) h
    simp only [Nat.add_mul_mod_self_left, Nat.mod_eq_of_lt ha, Nat.mod_eq_of_lt hc] at h1
    have hp : 0 < x.rows := by omega
    simp only [Nat.add_mul_div_left _ _ hp, Nat.div_eq_of_lt ha, Nat.div_eq_of_lt hc, Nat.zero_add] at h2
    exact ⟨h1, h2⟩
  have main : ∀ c : Nat, j < c → ((List.range c).foldl (fun mem (j : Nat) => (List.range x.rows).foldl (fun mem (i : Nat) =>
      Function.update mem ((i + x.rows * j : Nat) : Int) (x.e i j)) mem) mem) ((i + x.rows * j : Nat) : Int) = x.e i j := by
    intro c
    induction c with
    | zero => intro h; omega
    | succ c ih =>
      intro hjc1
      rw [List.range_succ, List.foldl_append]
      simp only [List.foldl_cons, List.foldl_nil]
      by_cases hjc : j = c
      · subst hjc
        exact (writes (fun a : Nat => ((a + x.rows * j : Nat) : Int)) (fun a => x.e a j) _ _).2
          (fun a ha b hb h => (huniq a j b j ha hb (by exact_mod_cast h)).1) i hi rfl
      · rw [(writes (fun a : Nat => ((a + x.rows * c : Nat) : Int)) (fun a => x.e a c) _ _).1 fun a ha h =>
          hjc (huniq a c i j ha hi (by exact_mod_cast h)).2.symm]
        exact ih (by omega)
  unfold fillMatrix
  simp only [haddr]
  exact main x.cols hj

/-- **C122 (to NumPy).**  A matrix or vector arrives in NumPy with its shape and entries, whatever the memory held before, as an array
that can be handed back. -/
theorem C122_from_eigen (dtype : DType) (x : Mx ℂ) (v : EVec) (mem : Int → ℂ) :
    (fromMatrix dtype x mem).shape = [x.rows, x.cols] ∧ (fromMatrix dtype x mem).dtype = dtype ∧
    (∀ i j, i < x.rows → j < x.cols → (fromMatrix dtype x mem).entry [i, j] = x.e i j) ∧
    (fromVector dtype v mem).shape = [v.len] ∧ (fromVector dtype v mem).dtype = dtype ∧
    (∀ i, i < v.len → (fromVector dtype v mem).entry [i] = v.e i) := by
  refine ⟨rfl, rfl, fun i j hi hj => ?_, rfl, rfl, fun i hi => ?_⟩
  · show fillMatrix x mem (0 + address (fortranStrides 1 [x.rows, x.cols]) [i, j]) = x.e i j
    rw [zero_add]; exact fill_entry x mem hi hj
  · show ((List.range v.len).foldl (fun mem (i : Nat) => Function.update mem (address (fortranStrides 1 [v.len]) [i]) (v.e i)) mem)
      (0 + address (fortranStrides 1 [v.len]) [i]) = v.e i
    rw [zero_add]
    refine (writes (fun i : Nat => address (fortranStrides 1 [v.len]) [i]) v.e mem _).2 (fun a ha b hb h => ?_) i hi rfl
    simpa [address, fortranStrides] using h

/-- **C122 (round trip).**  A matrix with entries sent to NumPy and back is the same matrix. -/
theorem C122_round_trip (dtype : DType) (x : Mx ℂ) (mem : Int → ℂ) (hr : 0 < x.rows) (hc : 0 < x.cols) (hs : Small x.rows x.cols) :
    ∃ y, toMatrix dtype (fromMatrix dtype x mem) = .ok y ∧ y.rows = x.rows ∧ y.cols = x.cols ∧
      ∀ i j, i < x.rows → j < x.cols → y.e i j = x.e i j := by
  have hf : (fromMatrix dtype x mem).fortran = true := by
    simp [fromMatrix, NdArray.fortran, fortranFrom, fortranStrides]
  have hq : require dtype (fromMatrix dtype x mem) = fromMatrix dtype x mem := by
    unfold require; rw [if_pos ⟨rfl, hf, rfl⟩]
  refine ⟨⟨x.rows, x.cols, fun i j => (fromMatrix dtype x mem).mem
    ((fromMatrix dtype x mem).start + ((j * x.rows + i : Nat) : Int))⟩, ?_, rfl, rfl, fun i j hi hj => ?_⟩
  · unfold toMatrix
    rw [hq]
    show (if (true : Bool) = false then Res.valueError else if x.rows = 0 ∨ x.cols = 0 then Res.indexError
      else if x.rows < 2 ^ 31 ∧ x.cols < 2 ^ 31 ∧ x.rows * x.cols ≤ 2 ^ 31 then _ else _) = _
    rw [if_neg (by simp), if_neg (by omega),
      if_pos (show x.rows < 2 ^ 31 ∧ x.cols < 2 ^ 31 ∧ x.rows * x.cols ≤ 2 ^ 31 from hs)]
  · have h := fill_entry x mem hi hj
    have ha : address (fortranStrides 1 [x.rows, x.cols]) [i, j] = ((j * x.rows + i : Nat) : Int) := by
      simp [address, fortranStrides]; ring
    rw [ha] at h
    show fillMatrix x mem (0 + ((j * x.rows + i : Nat) : Int)) = x.e i j
    rw [zero_add]; exact h

/-- The array `[[1, 2], [3, 4]]`, in C order. -/
def demo : NdArray := ⟨.complex128, [2, 2], [2, 1], 0, fun p => (p : ℂ) + 1, true, true⟩

/-- Its hypotheses hold, and the matrix it becomes. -/
example : ∃ y, toMatrix .complex128 demo = .ok y ∧ y.rows = 2 ∧ y.e 0 1 = 2 ∧ y.e 1 0 = 3 := by
  obtain ⟨y, h1, h2, h3⟩ := C122_to_matrix_partial .complex128 demo rfl (by intro h; cases h)
    ⟨rfl, by simp [demo], Or.inl rfl⟩ (by
      intro m n h
      simp only [demo, List.cons.injEq, and_true] at h
      obtain ⟨rfl, rfl⟩ := h
      exact ⟨by norm_num, by norm_num, by norm_num⟩)
  have hs : ([2, 2] : List Nat) = [y.rows, y.cols] := h2.1
  simp only [List.cons.injEq, and_true] at hs
  refine ⟨y, h1, hs.1.symm, ?_, ?_⟩
  · rw [h3 rfl 0 1 (by omega) (by omega)]
    simp [NdArray.entry, demo, address]; norm_num
  · rw [h3 rfl 1 0 (by omega) (by omega)]
    simp [NdArray.entry, demo, address]; norm_num

/-- **C122, counterexample.**  A matrix without entries goes to NumPy, but the array does not come back: an `IndexError`. -/
theorem C122_counterexample_empty (mem : Int → ℂ) :
    (fromMatrix .float64 ⟨0, 3, fun _ _ => 0⟩ mem).shape = [0, 3] ∧
    toMatrix .float64 (fromMatrix .float64 ⟨0, 3, fun _ _ => 0⟩ mem) = .indexError :=
  ⟨rfl, ((C122_errors _ _).2.2.2 (Or.inl rfl) (by simp [fromMatrix])).1 rfl⟩

/-- **C122, counterexample.**  Of two read-only arrays with the same entries, the one in C order is accepted and the one in Fortran order
is not. -/
theorem C122_counterexample_readonly :
    ∃ x y : NdArray, x.dtype = y.dtype ∧ x.shape = y.shape ∧ x.writeable = y.writeable ∧
      (∀ i j, i < 2 → j < 2 → x.entry [i, j] = y.entry [i, j]) ∧
      (∃ z, toMatrix .complex128 x = .ok z) ∧ toMatrix .complex128 y = .valueError := by
  refine ⟨{ demo with writeable := false, mem := fun _ => 7 }, { demo with writeable := false, mem := fun _ => 7, strides := [1, 2] },
    rfl, rfl, rfl, fun _ _ _ _ => rfl, ?_, ?_⟩
  · obtain ⟨z, h, _⟩ := C122_to_matrix_partial .complex128 { demo with writeable := false, mem := fun _ => 7 } rfl (by intro h; cases h)
      ⟨rfl, by simp [demo], Or.inr (Or.inr (Or.inl (by decide)))⟩ (by
        intro m n h
        simp only [demo, List.cons.injEq, and_true] at h
        obtain ⟨rfl, rfl⟩ := h
        exact ⟨by norm_num, by norm_num, by norm_num⟩)
    exact ⟨z, h⟩
  · exact ((C122_errors .complex128 _).2.2.1 rfl rfl (by decide) rfl).1

/-- **C122, counterexample.**  Converting a complex array to a real matrix drops the imaginary parts without an exception: two arrays with
different entries become the same matrix. -/
theorem C122_counterexample_complex :
    ∃ x : NdArray, x.entry [0, 0] = Complex.I ∧ ∃ y, toMatrix .float64 x = .ok y ∧ y.e 0 0 = 0 := by
  obtain ⟨y, h1, h2, _⟩ := C122_to_matrix_partial .float64 { demo with mem := fun _ => Complex.I } rfl (by intro h; cases h)
      ⟨rfl, by simp [demo], Or.inl rfl⟩ (by
        intro m n h
        simp only [demo, List.cons.injEq, and_true] at h
        obtain ⟨rfl, rfl⟩ := h
        exact ⟨by norm_num, by norm_num, by norm_num⟩)
  refine ⟨_, rfl, y, h1, ?_⟩
  have hs : ([2, 2] : List Nat) = [y.rows, y.cols] := h2.1
  simp only [List.cons.injEq, and_true] at hs
  rw [h2.2 0 0 (by omega) (by omega)]
  show (((Complex.I).re : ℝ) : ℂ) = 0
  simp

end Verif.NpEigen
