import Verif.Spec.PyBlocked
import Verif.Lemmas.PyDiscrete2
/-
Lemmas about discrete blocked operators.
-/
namespace Verif.PyOp
noncomputable section

/-! ### Types of results -/

/-- If the result has a complex type, so has the operator or the argument. -/
def Tame (z : Bool) (raw : Arr → Res Arr) : Prop :=
  ∀ x y, raw x = .ok y → y.complex = true → z = true ∨ x.complex = true

theorem Res.bind_ok {α β : Type} {r : Res α} {f : α → Res β} {y : β} (h : (r >>= f) = .ok y) : ∃ a, r = .ok a ∧ f a = .ok y := by
  cases r with
  | error e => cases h
  | ok a => exact ⟨a, rfl, h⟩

theorem arrAdd_complex {a b y : Arr} (h : a.add b = .ok y) : y.complex = (a.complex || b.complex) := by
  unfold Arr.add at h
  split at h
  · cases h; rfl
  · cases h

theorem reshape_complex {a y : Arr} {t : Bool} {M : Nat} (h : a.reshape t M = .ok y) : y.complex = a.complex := by
  unfold Arr.reshape at h
  split at h
  · cases h
  · cases h; rfl

theorem dot_complex {a x y : Arr} (h : a.dot x = .ok y) : y.complex = (a.complex || x.complex) := by
  unfold Arr.dot at h
  split at h
  · cases h
  · cases h; rfl

theorem wrapVec_tame {z : Bool} {M N : Nat} {raw : Arr → Res Arr} (h : Tame z raw) : Tame z (wrapVec M N raw) := by
  intro x y hy hc
  unfold wrapVec at hy
  split at hy
  · obtain ⟨a, ha, hb⟩ := Res.bind_ok hy
    rw [reshape_complex hb] at hc
    exact h x a ha hc
  · cases hy

theorem wrapMat_tame {z : Bool} {N : Nat} {raw : Arr → Res Arr} (h : Tame z raw) : Tame z (wrapMat N raw) := by
  intro x y hy hc
  unfold wrapMat at hy
  split at hy
  · exact h x y hy hc
  · cases hy

theorem mapM_mem {α β : Type} (f : α → Res β) : ∀ (l : List α) (ys : List β), l.mapM f = .ok ys → ∀ y ∈ ys, ∃ a, f a = .ok y
  | [], ys, h, y, hy => by
    cases h; cases hy
  | a :: l, ys, h, y, hy => by
    rw [List.mapM_cons] at h
    obtain ⟨b, hb, h⟩ := Res.bind_ok h
    obtain ⟨bs, hbs, h⟩ := Res.bind_ok h
    cases h
    rcases List.mem_cons.mp hy with rfl | hy
    · exact ⟨a, hb⟩
    · exact mapM_mem f l bs hbs y hy

theorem defaultMatmat_tame {z : Bool} {M : Nat} {mv : Arr → Res Arr} (h : Tame z mv) : Tame z (defaultMatmat M mv) := by
  intro x y hy hc
  unfold defaultMatmat at hy
  split at hy
  · cases hy
  · obtain ⟨ys, h1, h2⟩ := Res.bind_ok hy
    cases h2
    dsimp only at hc
    obtain ⟨w, hw1, hw2⟩ := List.any_eq_true.mp hc
    obtain ⟨j, hj⟩ := mapM_mem _ _ _ h1 w hw1
    exact h (x.column j) w hj hw2

theorem backend_tame (b : Backend) : Tame b.complex b.matvec := by
  intro x y hy hc
  unfold Backend.matvec at hy
  split at hy
  · rename_i hh; exact Or.inr hh.2
  · unfold Backend.apply at hy
    split at hy
    · cases hy
    · cases hy; exact Or.inl hc

theorem dot_tame (A : Arr) : Tame A.complex A.dot := by
  intro x y hy hc
  rw [dot_complex hy] at hc
  simpa using hc

theorem sparse_tame (A : Arr) : Tame A.complex (sparseMatvec A) := by
  intro x y hy hc
  unfold sparseMatvec at hy
  split at hy
  · rename_i hh; exact Or.inr hh.2
  · exact dot_tame A x y hy hc

theorem gram_complex {A S : Arr} (h : gram A = .ok S) : S.complex = A.complex := by
  unfold gram at h
  split at h
  · cases h; rfl
  · split at h
    · rw [dot_complex h]; simp [Arr.conjugate, Arr.transpose]
    · rw [dot_complex h]; simp [Arr.conjugate, Arr.transpose]

theorem luSolve_complex {S b y : Arr} (h : luSolve S b = .ok y) : y.complex = S.complex := by
  unfold luSolve at h
  split at h
  · cases h
  · split at h
    · cases h
    · cases h; rfl

theorem solveFun_tame (A : Arr) : Tame A.complex (solveFun A) := by
  intro x y hy hc
  unfold solveFun at hy
  obtain ⟨S, hS, hy⟩ := Res.bind_ok hy
  have hSc := gram_complex hS
  split at hy
  · rw [luSolve_complex hy, hSc] at hc; exact Or.inl hc
  · split at hy
    · obtain ⟨b, hb, hy⟩ := Res.bind_ok hy
      rw [luSolve_complex hy, hSc] at hc; exact Or.inl hc
    · obtain ⟨w, hw, hy⟩ := Res.bind_ok hy
      rw [dot_complex hy, luSolve_complex hw, hSc] at hc
      exact Or.inl (by simpa [Arr.conjugate, Arr.transpose] using hc)

theorem solve_tame (A : Arr) : Tame A.complex (solve A) := by
  intro x y hy hc
  unfold solve at hy
  split at hy
  · rename_i hh; exact Or.inr hh.2
  · unfold solveReal at hy
    split at hy
    · cases hy
    · obtain ⟨r, hr, hy⟩ := Res.bind_ok hy
      have hyr : y.complex = r.complex := by
        split at hy
        · exact reshape_complex hy
        · cases hy; rfl
      rw [hyr] at hc
      exact solveFun_tame A { x with twoD := false } r hr hc

theorem rankOne_tame (p q : Arr) : Tame (q.complex || p.complex) (rankOneMatvec p q) := by
  intro x y hy hc
  unfold rankOneMatvec at hy
  split at hy
  · cases hy
  · cases hy
    dsimp only at hc
    revert hc
    cases p.complex <;> cases q.complex <;> cases x.complex <;> simp

theorem zero_tame (r : Nat) : Tame false (fun x => .ok ⟨x.twoD, r, x.cols, false, fun _ _ => 0⟩) := by
  intro x y hy hc
  cases hy; cases hc

theorem Op.rawMatvec_tame (op : Op) : Tame op.complex op.rawMatvec := by
  induction op with
  | sum a b iha ihb =>
    intro x y hy hc
    rw [Op.rawMatvec] at hy
    obtain ⟨u, hu, hy⟩ := Res.bind_ok hy
    obtain ⟨v, hv, hy⟩ := Res.bind_ok hy
    rw [arrAdd_complex hy, Bool.or_eq_true] at hc
    simp only [Op.complex, Bool.or_eq_true]
    rcases hc with hc | hc
    · rcases wrapVec_tame iha x u hu hc with h | h
      · exact Or.inl (Or.inl h)
      · exact Or.inr h
    · rcases wrapVec_tame ihb x v hv hc with h | h
      · exact Or.inl (Or.inr h)
      · exact Or.inr h
  | product a b iha ihb =>
    intro x y hy hc
    rw [Op.rawMatvec] at hy
    obtain ⟨u, hu, hy⟩ := Res.bind_ok hy
    simp only [Op.complex, Bool.or_eq_true]
    rcases wrapVec_tame iha u y hy hc with h | h
    · exact Or.inl (Or.inl h)
    · rcases wrapVec_tame ihb x u hu h with h | h
      · exact Or.inl (Or.inr h)
      · exact Or.inr h
  | scaled a c ih =>
    intro x y hy hc
    rw [Op.rawMatvec] at hy
    obtain ⟨u, hu, hy⟩ := Res.bind_ok hy
    cases hy
    simp only [Arr.smul, Bool.or_eq_true] at hc
    simp only [Op.complex, Bool.or_eq_true]
    rcases hc with hc | hc
    · rcases wrapVec_tame ih x u hu hc with h | h
      · exact Or.inl (Or.inl h)
      · exact Or.inr h
    · exact Or.inl (Or.inr hc)
  | nonlocal b => exact backend_tame b
  | dense A => exact dot_tame A
  | sparse A => exact sparse_tame A
  | inverse A => exact solve_tame A
  | zero r c => exact zero_tame r
  | rankOne p q => exact rankOne_tame p q

theorem Op.rawMatmat_tame (op : Op) : Tame op.complex op.rawMatmat := by
  induction op with
  | sum a b iha ihb =>
    intro x y hy hc
    rw [Op.rawMatmat] at hy
    obtain ⟨u, hu, hy⟩ := Res.bind_ok hy
    obtain ⟨v, hv, hy⟩ := Res.bind_ok hy
    rw [arrAdd_complex hy, Bool.or_eq_true] at hc
    simp only [Op.complex, Bool.or_eq_true]
    rcases hc with hc | hc
    · rcases wrapMat_tame iha x u hu hc with h | h
      · exact Or.inl (Or.inl h)
      · exact Or.inr h
    · rcases wrapMat_tame ihb x v hv hc with h | h
      · exact Or.inl (Or.inr h)
      · exact Or.inr h
  | product a b iha ihb =>
    intro x y hy hc
    rw [Op.rawMatmat] at hy
    obtain ⟨u, hu, hy⟩ := Res.bind_ok hy
    simp only [Op.complex, Bool.or_eq_true]
    rcases wrapMat_tame iha u y hy hc with h | h
    · exact Or.inl (Or.inl h)
    · rcases wrapMat_tame ihb x u hu h with h | h
      · exact Or.inl (Or.inr h)
      · exact Or.inr h
  | scaled a c ih =>
    intro x y hy hc
    rw [Op.rawMatmat] at hy
    obtain ⟨u, hu, hy⟩ := Res.bind_ok hy
    cases hy
    simp only [Arr.smul, Bool.or_eq_true] at hc
    simp only [Op.complex, Bool.or_eq_true]
    rcases hc with hc | hc
    · rcases wrapMat_tame ih x u hu hc with h | h
      · exact Or.inl (Or.inl h)
      · exact Or.inr h
    · exact Or.inl (Or.inr hc)
  | nonlocal b => exact backend_tame b
  | dense A => exact dot_tame A
  | sparse A => exact sparse_tame A
  | inverse A =>
    exact defaultMatmat_tame (wrapVec_tame (Op.rawMatvec_tame (.inverse A)))
  | zero r c => exact defaultMatmat_tame (wrapVec_tame (Op.rawMatvec_tame (.zero r c)))
  | rankOne p q => exact defaultMatmat_tame (wrapVec_tame (Op.rawMatvec_tame (.rankOne p q)))

theorem Op.apply_tame (op : Op) : Tame op.complex op.apply := by
  intro x y hy hc
  unfold Op.apply at hy
  split at hy
  · exact op.rawMatvec_tame x y hy hc
  · exact op.rawMatmat_tame x y hy hc

theorem blockDot_tame (op : Op) : Tame op.complex (blockDot op) := by
  intro x y hy hc
  unfold blockDot at hy
  split at hy
  · rename_i h; exact Or.inr h.1
  · exact op.apply_tame x y hy hc

/-! ### Positions -/

theorem offset_zero (d : List Nat) : offset d 0 = 0 := by simp [offset]

theorem offset_cons (c : Nat) (d : List Nat) (i : Nat) : offset (c :: d) (i + 1) = c + offset d i := by
  unfold offset
  rw [Finset.sum_range_succ', add_comm]
  simp

/-- A sum over all positions is the sum over the blocks of the sums within them. -/
theorem sum_blocks (f : Nat → ℂ) : ∀ (d : List Nat) (a : Nat),
    ∑ t ∈ Finset.range d.sum, f (a + t) = ∑ j ∈ Finset.range d.length, ∑ q ∈ Finset.range (d.getD j 0), f (a + (offset d j + q))
  | [], a => by simp
  | c :: d, a => by
    rw [List.sum_cons, Finset.sum_range_add, List.length_cons, Finset.sum_range_succ']
    have h1 : ∀ t, f (a + (c + t)) = f ((a + c) + t) := fun t => by rw [Nat.add_assoc]
    simp only [h1, sum_blocks f d (a + c), offset_cons, List.getD_cons_succ, List.getD_cons_zero, offset_zero, Nat.zero_add]
    rw [add_comm]
    simp only [Nat.add_assoc]

theorem offset_length (d : List Nat) : offset d d.length = d.sum := by
  induction d with
  | nil => rfl
  | cons c d ih => rw [List.length_cons, offset_cons, ih, List.sum_cons]

theorem offset_succ (d : List Nat) (i : Nat) : offset d (i + 1) = offset d i + d.getD i 0 := by
  unfold offset; rw [Finset.sum_range_succ]

theorem offset_mono (d : List Nat) {i j : Nat} (h : i ≤ j) : offset d i ≤ offset d j := by
  induction h with
  | refl => exact le_refl _
  | step h ih => rw [offset_succ]; omega

theorem offset_le (d : List Nat) {i p : Nat} (hi : i < d.length) (hp : p < d.getD i 0) : offset d i + p < d.sum := by
  rw [← offset_length]
  have := offset_mono d (i := i + 1) (j := d.length) hi
  rw [offset_succ] at this
  omega

/-- Each position is in one block. -/
theorem offset_exists : ∀ (d : List Nat) (s : Nat), s < d.sum → ∃ i < d.length, ∃ p < d.getD i 0, s = offset d i + p
  | [], s, h => by simp at h
  | c :: d, s, h => by
    by_cases hs : s < c
    · exact ⟨0, by simp, s, by simpa using hs, by rw [offset_zero]; omega⟩
    · obtain ⟨i, hi, p, hp, he⟩ := offset_exists d (s - c) (by rw [List.sum_cons] at h; omega)
      exact ⟨i + 1, by simpa using hi, p, by simpa using hp, by rw [offset_cons]; omega⟩

theorem offset_unique (d : List Nat) {i j p q : Nat} (hp : p < d.getD i 0) (hq : q < d.getD j 0)
    (h : offset d i + p = offset d j + q) : i = j ∧ p = q := by
  rcases lt_trichotomy i j with hij | hij | hij
  · have := offset_mono d (i := i + 1) (j := j) hij
    rw [offset_succ] at this
    omega
  · subst hij; exact ⟨rfl, by omega⟩
  · have := offset_mono d (i := j + 1) (j := i) hij
    rw [offset_succ] at this
    omega

/-! ### The constructor -/

/-- The dimensions known so far are those of `rd` and `cd`. -/
def Scan.Within (s : Scan) (rd cd : Nat → Nat) : Prop :=
  (∀ i n, s.rows i = some n → n = rd i) ∧ ∀ j n, s.cols j = some n → n = cd j

/-- Nothing that is known is changed. -/
def Scan.Le (s t : Scan) : Prop :=
  (∀ i n, s.rows i = some n → t.rows i = some n) ∧ ∀ j n, s.cols j = some n → t.cols j = some n

theorem Scan.Le.refl (s : Scan) : s.Le s := ⟨fun _ _ h => h, fun _ _ h => h⟩
theorem Scan.Le.trans {s t u : Scan} (h : s.Le t) (k : t.Le u) : s.Le u :=
  ⟨fun i n hh => k.1 i n (h.1 i n hh), fun i n hh => k.2 i n (h.2 i n hh)⟩

theorem checkDim_ok {known : Nat → Option Nat} {i size : Nat} {r : Nat → Option Nat} (h : checkDim known i size = .ok r) :
    r i = some size ∧ (∀ k n, known k = some n → r k = some n) ∧ ∀ k n, r k = some n → known k = some n ∨ (k = i ∧ n = size) := by
  unfold checkDim at h
  split at h
  · rename_i n hn
    split at h
    · cases h
    · rename_i hs
      cases h
      have : size = n := by simpa using hs
      subst this
      exact ⟨hn, fun _ _ hh => hh, fun _ _ hh => Or.inl hh⟩
  · rename_i hn
    cases h
    refine ⟨Function.update_self .., fun k n hk => ?_, fun k n hk => ?_⟩
    · rw [Function.update_of_ne]
      · exact hk
      · rintro rfl; rw [hn] at hk; cases hk
    · by_cases hki : k = i
      · subst hki
        rw [Function.update_self] at hk
        cases hk
        exact Or.inr ⟨rfl, rfl⟩
      · rw [Function.update_of_ne hki] at hk
        exact Or.inl hk

theorem checkDim_error {known : Nat → Option Nat} {i size : Nat} {e : Exn} (h : checkDim known i size = .error e) :
    e = .ValueError := by
  unfold checkDim at h
  split at h
  · split at h
    · cases h; rfl
    · cases h
  · cases h

theorem checkDim_exists {known : Nat → Option Nat} {i size : Nat} (h : ∀ n, known i = some n → n = size) :
    ∃ r, checkDim known i size = .ok r := by
  unfold checkDim
  split
  · rename_i n hn
    rw [if_neg (by have := h n hn; omega)]
    exact ⟨_, rfl⟩
  · exact ⟨_, rfl⟩

/-- What the state after a block or a list of blocks `P` says. -/
structure ScanOk (ops : Nat → Nat → Option Op) (P : Nat → Nat → Prop) (s t : Scan) : Prop where
  le : s.Le t
  found : ∀ i j op, P i j → ops i j = some op → t.rows i = some op.shape.1 ∧ t.cols j = some op.shape.2
  rows : ∀ i n, t.rows i = some n → s.rows i = some n ∨ ∃ j op, P i j ∧ ops i j = some op ∧ n = op.shape.1
  cols : ∀ j n, t.cols j = some n → s.cols j = some n ∨ ∃ i op, P i j ∧ ops i j = some op ∧ n = op.shape.2

theorem ScanOk.comp {ops : Nat → Nat → Option Op} {P Q : Nat → Nat → Prop} {s t u : Scan} (h : ScanOk ops P s t) (k : ScanOk ops Q t u) :
    ScanOk ops (fun i j => P i j ∨ Q i j) s u := by
  refine ⟨h.le.trans k.le, fun i j op hp ho => ?_, fun i n hn => ?_, fun j n hn => ?_⟩
  · rcases hp with hp | hp
    · obtain ⟨h1, h2⟩ := h.found i j op hp ho
      exact ⟨k.le.1 _ _ h1, k.le.2 _ _ h2⟩
    · exact k.found i j op hp ho
  · rcases k.rows i n hn with h1 | ⟨j, op, h1, h2, h3⟩
    · rcases h.rows i n h1 with h1 | ⟨j, op, h1, h2, h3⟩
      · exact Or.inl h1
      · exact Or.inr ⟨j, op, Or.inl h1, h2, h3⟩
    · exact Or.inr ⟨j, op, Or.inr h1, h2, h3⟩
  · rcases k.cols j n hn with h1 | ⟨i, op, h1, h2, h3⟩
    · rcases h.cols j n h1 with h1 | ⟨i, op, h1, h2, h3⟩
      · exact Or.inl h1
      · exact Or.inr ⟨i, op, Or.inl h1, h2, h3⟩
    · exact Or.inr ⟨i, op, Or.inr h1, h2, h3⟩

theorem scanBlock_ok {ops : Nat → Nat → Option Op} {s t : Scan} {i j : Nat} (h : scanBlock ops s i j = .ok t) :
    ScanOk ops (fun a b => a = i ∧ b = j) s t := by
  unfold scanBlock at h
  split at h
  · rename_i hn
    cases h
    refine ⟨Scan.Le.refl s, fun a b op hp ho => ?_, fun a n hn => Or.inl hn, fun a n hn => Or.inl hn⟩
    obtain ⟨rfl, rfl⟩ := hp
    rw [hn] at ho; cases ho
  · rename_i op ho
    obtain ⟨r, hr, h⟩ := Res.bind_ok h
    obtain ⟨c, hc, h⟩ := Res.bind_ok h
    cases h
    obtain ⟨r1, r2, r3⟩ := checkDim_ok hr
    obtain ⟨c1, c2, c3⟩ := checkDim_ok hc
    refine ⟨⟨r2, c2⟩, fun a b op' hp ho' => ?_, fun a n hn => ?_, fun a n hn => ?_⟩
    · obtain ⟨rfl, rfl⟩ := hp
      rw [ho] at ho'; cases ho'
      exact ⟨r1, c1⟩
    · rcases r3 a n hn with h1 | ⟨rfl, rfl⟩
      · exact Or.inl h1
      · exact Or.inr ⟨j, op, ⟨rfl, rfl⟩, ho, rfl⟩
    · rcases c3 a n hn with h1 | ⟨rfl, rfl⟩
      · exact Or.inl h1
      · exact Or.inr ⟨i, op, ⟨rfl, rfl⟩, ho, rfl⟩

theorem foldlM_scan {ops : Nat → Nat → Option Op} {f : Scan → Nat → Res Scan} {P : Nat → Nat → Nat → Prop}
    (hf : ∀ s t k, f s k = .ok t → ScanOk ops (P k) s t) : ∀ (l : List Nat) (s t : Scan), l.foldlM f s = .ok t →
      ScanOk ops (fun i j => ∃ k ∈ l, P k i j) s t
  | [], s, t, h => by
    cases h
    exact ⟨Scan.Le.refl s, fun a b op hp ho => (by obtain ⟨k, hk, -⟩ := hp; cases hk), fun a n hn => Or.inl hn, fun a n hn => Or.inl hn⟩
  | k :: l, s, t, h => by
    rw [List.foldlM_cons] at h
    obtain ⟨u, hu, h⟩ := Res.bind_ok h
    have h1 := (hf s u k hu).comp (foldlM_scan hf l u t h)
    have : (fun i j => ∃ k' ∈ k :: l, P k' i j) = fun i j => P k i j ∨ ∃ k' ∈ l, P k' i j := by
      funext i j
      simp
    rw [this]
    exact h1

theorem scanBlocks_ok {m n : Nat} {ops : Nat → Nat → Option Op} {t : Scan} (h : scanBlocks m n ops = .ok t) :
    ScanOk ops (fun i j => i < m ∧ j < n) ⟨fun _ => none, fun _ => none⟩ t := by
  have h1 := foldlM_scan (ops := ops) (P := fun k a b => ∃ j ∈ List.range n, a = k ∧ b = j)
    (fun s t k hk => foldlM_scan (ops := ops) (P := fun j a b => a = k ∧ b = j) (fun s t j hj => scanBlock_ok hj) (List.range n) s t hk)
    (List.range m) _ t h
  have : (fun a b => ∃ k ∈ List.range m, ∃ j ∈ List.range n, a = k ∧ b = j) = fun i j => i < m ∧ j < n := by
    funext a b
    simp
  rw [this] at h1
  exact h1

theorem scanBlock_within {ops : Nat → Nat → Option Op} {s : Scan} {i j : Nat} {rd cd : Nat → Nat} (hs : s.Within rd cd)
    (ho : ∀ op, ops i j = some op → op.shape = (rd i, cd j)) : ∃ t, scanBlock ops s i j = .ok t ∧ t.Within rd cd := by
  cases h : ops i j with
  | none =>
    refine ⟨s, ?_, hs⟩
    unfold scanBlock; rw [h]
  | some op =>
    have hsh := ho op h
    obtain ⟨r, hr⟩ := checkDim_exists (known := s.rows) (i := i) (size := op.shape.1) (fun n hn => by rw [hsh]; exact hs.1 i n hn)
    obtain ⟨c, hc⟩ := checkDim_exists (known := s.cols) (i := j) (size := op.shape.2) (fun n hn => by rw [hsh]; exact hs.2 j n hn)
    refine ⟨⟨r, c⟩, ?_, fun a n hn => ?_, fun a n hn => ?_⟩
    · unfold scanBlock; rw [h]; dsimp only; rw [hr, ok_bind, hc, ok_bind]
    · rcases (checkDim_ok hr).2.2 a n hn with h1 | ⟨rfl, rfl⟩
      · exact hs.1 a n h1
      · rw [hsh]
    · rcases (checkDim_ok hc).2.2 a n hn with h1 | ⟨rfl, rfl⟩
      · exact hs.2 a n h1
      · rw [hsh]

theorem foldlM_within {f : Scan → Nat → Res Scan} {rd cd : Nat → Nat} : ∀ (l : List Nat) (s : Scan),
    (∀ (s : Scan), ∀ k ∈ l, s.Within rd cd → ∃ t, f s k = .ok t ∧ t.Within rd cd) → s.Within rd cd →
      ∃ t, l.foldlM f s = .ok t ∧ t.Within rd cd
  | [], s, _, hs => ⟨s, rfl, hs⟩
  | k :: l, s, hf, hs => by
    obtain ⟨t, h1, h2⟩ := hf s k (by simp) hs
    obtain ⟨u, h3, h4⟩ := foldlM_within l t (fun s k hk => hf s k (by simp [hk])) h2
    exact ⟨u, by rw [List.foldlM_cons, h1, ok_bind, h3], h4⟩

theorem scanBlocks_within {m n : Nat} {ops : Nat → Nat → Option Op} {rd cd : Nat → Nat}
    (ho : ∀ i < m, ∀ j < n, ∀ op, ops i j = some op → op.shape = (rd i, cd j)) :
    ∃ t, scanBlocks m n ops = .ok t ∧ t.Within rd cd := by
  refine foldlM_within (List.range m) _ (fun s i hi hs => ?_) ⟨fun _ _ h => (by cases h), fun _ _ h => (by cases h)⟩
  refine foldlM_within (List.range n) s (fun s j hj hs => ?_) hs
  exact scanBlock_within hs (ho i (List.mem_range.mp hi) j (List.mem_range.mp hj))

theorem foldlM_error {σ : Type} {f : σ → Nat → Res σ} {e : Exn} : ∀ (l : List Nat) (s : σ),
    (∀ (s : σ), ∀ k ∈ l, ∀ e, f s k = .error e → e = .ValueError) → l.foldlM f s = .error e → e = .ValueError
  | [], s, _, h => by cases h
  | k :: l, s, hf, h => by
    rw [List.foldlM_cons] at h
    cases hk : f s k with
    | error e' =>
      rw [hk, error_bind] at h
      cases h
      exact hf s k (by simp) _ hk
    | ok t =>
      rw [hk, ok_bind] at h
      exact foldlM_error l t (fun s k hk => hf s k (by simp [hk])) h

theorem scanBlocks_error {m n : Nat} {ops : Nat → Nat → Option Op} {e : Exn} (h : scanBlocks m n ops = .error e) : e = .ValueError := by
  refine foldlM_error (List.range m) _ (fun s i _ e he => ?_) h
  refine foldlM_error (List.range n) s (fun s j _ e he => ?_) he
  unfold scanBlock at he
  cases ho : ops i j with
  | none => rw [ho] at he; cases he
  | some op =>
    rw [ho] at he
    dsimp only at he
    cases h1 : checkDim s.rows i op.shape.1 with
    | error e' => rw [h1] at he; cases he; exact checkDim_error h1
    | ok r =>
      rw [h1, ok_bind] at he
      cases h2 : checkDim s.cols j op.shape.2 with
      | error e' => rw [h2] at he; cases he; exact checkDim_error h2
      | ok r => rw [h2] at he; cases he

theorem fillComplete_iff (m n : Nat) (s : Scan) :
    fillComplete m n s = true ↔ (∀ i < m, (s.rows i).isSome) ∧ ∀ j < n, (s.cols j).isSome := by
  unfold fillComplete
  simp [List.all_eq_true]

/-- What the constructor returns. -/
theorem mkBlocks_ok {m n : Nat} {ops : Nat → Nat → Option Op} {op : BOp} (h : mkBlocks m n ops = .ok op) :
    ∃ rd cd : List Nat, rd.length = m ∧ cd.length = n ∧ Covered m n ops ∧
      (∀ i < m, ∀ j < n, ∀ o, ops i j = some o → o.shape = (rd.getD i 0, cd.getD j 0)) ∧
      op = .blocks rd cd fun i j => (ops i j).getD (.zero (rd.getD i 0) (cd.getD j 0)) := by
  unfold mkBlocks at h
  obtain ⟨s, hs, h⟩ := Res.bind_ok h
  have hok := scanBlocks_ok hs
  split at h
  · cases h
  · rename_i hf
    have hf : fillComplete m n s = true := by simpa using hf
    obtain ⟨f1, f2⟩ := (fillComplete_iff m n s).mp hf
    cases h
    refine ⟨_, _, by simp, by simp, ⟨fun i hi => ?_, fun j hj => ?_⟩, fun i hi j hj o ho => ?_, rfl⟩
    · obtain ⟨r, hr⟩ := Option.isSome_iff_exists.mp (f1 i hi)
      rcases hok.rows i r hr with h1 | ⟨j, o, ⟨-, hj⟩, ho, -⟩
      · cases h1
      · exact ⟨j, hj, by rw [ho]; rfl⟩
    · obtain ⟨r, hr⟩ := Option.isSome_iff_exists.mp (f2 j hj)
      rcases hok.cols j r hr with h1 | ⟨i, o, ⟨hi, -⟩, ho, -⟩
      · cases h1
      · exact ⟨i, hi, by rw [ho]; rfl⟩
    · obtain ⟨h1, h2⟩ := hok.found i j o ⟨hi, hj⟩ ho
      simp [h1, h2, hi, hj]

theorem mkBlocks_error {m n : Nat} {ops : Nat → Nat → Option Op} {e : Exn} (h : mkBlocks m n ops = .error e) : e = .ValueError := by
  unfold mkBlocks at h
  cases hs : scanBlocks m n ops with
  | error e' => rw [hs] at h; cases h; exact scanBlocks_error hs
  | ok s =>
    rw [hs, ok_bind] at h
    split at h
    · cases h; rfl
    · cases h

theorem mkBlocks_exists {m n : Nat} {ops : Nat → Nat → Option Op} {rd cd : List Nat} (hm : rd.length = m) (hn : cd.length = n)
    (hc : Covered m n ops) (ho : ∀ i < m, ∀ j < n, ∀ o, ops i j = some o → o.shape = (rd.getD i 0, cd.getD j 0)) :
    mkBlocks m n ops = .ok (.blocks rd cd fun i j => (ops i j).getD (.zero (rd.getD i 0) (cd.getD j 0))) := by
  obtain ⟨s, hs, hw⟩ := scanBlocks_within (rd := fun i => rd.getD i 0) (cd := fun j => cd.getD j 0) ho
  have hok := scanBlocks_ok hs
  have hr : ∀ i < m, s.rows i = some (rd.getD i 0) := by
    intro i hi
    obtain ⟨j, hj, h1⟩ := hc.1 i hi
    obtain ⟨o, h2⟩ := Option.isSome_iff_exists.mp h1
    rw [(hok.found i j o ⟨hi, hj⟩ h2).1, ho i hi j hj o h2]
  have hcl : ∀ j < n, s.cols j = some (cd.getD j 0) := by
    intro j hj
    obtain ⟨i, hi, h1⟩ := hc.2 j hj
    obtain ⟨o, h2⟩ := Option.isSome_iff_exists.mp h1
    rw [(hok.found i j o ⟨hi, hj⟩ h2).2, ho i hi j hj o h2]
  have hrd : (List.range m).map (fun i => (s.rows i).getD 0) = rd := by
    apply List.ext_getElem (by simp [hm])
    intro i h1 h2
    have : i < m := by simpa using h1
    simp [hr i this, h2]
  have hcd : (List.range n).map (fun i => (s.cols i).getD 0) = cd := by
    apply List.ext_getElem (by simp [hn])
    intro i h1 h2
    have : i < n := by simpa using h1
    simp [hcl i this, h2]
  unfold mkBlocks
  rw [hs, ok_bind, if_neg]
  · dsimp only
    rw [hrd, hcd]
  · have := (fillComplete_iff m n s).mpr ⟨fun i hi => by rw [hr i hi]; rfl, fun j hj => by rw [hcl j hj]; rfl⟩
    rw [this]; simp

end

end Verif.PyOp
