import Verif.Lemmas.PyBlocked
/-
Discrete blocked operators: products with arrays, algebra and blocks.
-/
namespace Verif.PyOp
noncomputable section

theorem Built.rep {op : Op} {r c : Nat} {M : Matrix (Fin r) (Fin c) ℂ} (h : Built op r c M) : Rep op r c M := by
  obtain ⟨e, hw, hp, hd, he⟩ := h
  obtain ⟨op', h1, h2⟩ := denotes_rep hd hw hp
  rw [he] at h1
  cases h1
  exact h2

/-- The product of a block and a part of the argument. -/
theorem blockDot_ok {op : Op} {r c : Nat} {M : Matrix (Fin r) (Fin c) ℂ} (h : Rep op r c M) (x : Arr) (hr : x.rows = c)
    (hc : 1 ≤ x.cols) (ht : x.twoD = true) : ∃ y, blockDot op x = .ok y ∧ IsProduct M x y := by
  unfold blockDot
  split
  · obtain ⟨u, hu1, hu2⟩ := (h.acts.2 x.real hr hc (fun hh => by rw [show x.real.twoD = x.twoD from rfl, ht] at hh; cases hh)).1
    obtain ⟨v, hv1, hv2⟩ := (h.acts.2 x.imag hr hc (fun hh => by rw [show x.imag.twoD = x.twoD from rfl, ht] at hh; cases hh)).1
    rw [hu1, ok_bind, hv1, ok_bind]
    exact split_ok hu2 hv2
  · exact (h.acts.2 x hr hc (fun hh => by rw [ht] at hh; cases hh)).1

/-- The entries of a product. -/
theorem IsProduct.entry {r c : Nat} {E : Nat → Nat → ℂ} {x y : Arr} (h : IsProduct (toM r c E) x y) {p k : Nat} (hp : p < r)
    (hk : k < x.cols) : y.e p k = ∑ q ∈ Finset.range c, E p q * x.e q k := by
  have := congrFun (h.2.2.2 k hk) ⟨p, hp⟩
  dsimp only at this
  rw [this]
  simp only [Matrix.mulVec, dotProduct, toM, Matrix.of_apply]
  exact (Finset.sum_range fun q => E p q * x.e q k).symm

/-- One block row is added to its rows. -/
theorem blockRow_ok {ops : Nat → Op} {x : Arr} {rowDim n : Nat} {B : Nat → Nat → Nat → ℂ} (hc : 1 ≤ x.cols) :
    ∀ (cols : List Nat) (j colDim : Nat) (res : Arr), colDim + cols.sum ≤ x.rows → res.cols = x.cols →
      (∀ l < cols.length, Rep (ops (j + l)) n (cols.getD l 0) (toM _ _ (B (j + l)))) →
      (∀ l < cols.length, (ops (j + l)).complex = true → res.complex = true) → (x.complex = true → res.complex = true) →
      ∃ y, blockRow ops x rowDim n cols j colDim res = .ok y ∧ y.twoD = res.twoD ∧ y.rows = res.rows ∧ y.cols = res.cols ∧
        y.complex = res.complex ∧ ∀ p, ∀ k < x.cols, y.e p k = res.e p k + if rowDim ≤ p ∧ p < rowDim + n then
          ∑ l ∈ Finset.range cols.length, ∑ q ∈ Finset.range (cols.getD l 0), B (j + l) (p - rowDim) q * x.e (colDim + (offset cols l + q)) k
          else 0
  | [], j, colDim, res, _, _, _, _, _ => by
    refine ⟨res, rfl, rfl, rfl, rfl, rfl, fun p k hk => ?_⟩
    simp
  | c :: cs, j, colDim, res, hx, hrc, hrep, hcomp, hxc => by
    rw [List.sum_cons] at hx
    have h0 := hrep 0 (by simp)
    rw [List.getD_cons_zero, Nat.add_zero] at h0
    have hsl : (x.slice colDim c).rows = c := by
      simp only [Arr.slice]; omega
    obtain ⟨y, hy1, hy2⟩ := blockDot_ok h0 (x.slice colDim c) hsl hc rfl
    have hyc : y.complex = true → res.complex = true := by
      intro hh
      rcases blockDot_tame _ _ _ hy1 hh with h | h
      · exact hcomp 0 (by simp) (by simpa using h)
      · exact hxc h
    have hyr : y.rows = n := hy2.2.1
    have hyk : y.cols = x.cols := hy2.2.2.1
    rw [blockRow, hy1, ok_bind]
    unfold Arr.addRows
    rw [if_neg (by rintro ⟨h1, h2⟩; rw [hyc h1] at h2; cases h2), if_pos ⟨Or.inl hyr, Or.inl (by rw [hyk, hrc])⟩, ok_bind]
    obtain ⟨z, hz1, hz2, hz3, hz4, hz5, hz6⟩ := blockRow_ok (ops := ops) (x := x) (rowDim := rowDim) (n := n) (B := B) hc cs (j + 1)
      (colDim + c) ⟨res.twoD, res.rows, res.cols, res.complex, fun p k =>
        if rowDim ≤ p ∧ p < rowDim + n then
          res.e p k + y.e (if y.rows = 1 then 0 else p - rowDim) (if y.cols = 1 then 0 else k)
        else res.e p k⟩ (by omega) hrc
      (fun l hl => by
        have := hrep (l + 1) (by simpa using hl)
        rw [List.getD_cons_succ, show j + (l + 1) = j + 1 + l by omega] at this
        exact this)
      (fun l hl hh => hcomp (l + 1) (by simpa using hl) (by rw [show j + (l + 1) = j + 1 + l by omega]; exact hh)) hxc
    refine ⟨z, hz1, hz2, hz3, hz4, hz5, fun p k hk => ?_⟩
    rw [hz6 p k hk]
    dsimp only
    by_cases hp : rowDim ≤ p ∧ p < rowDim + n
    · rw [if_pos hp, if_pos hp, if_pos hp]
      have e1 : (if y.rows = 1 then 0 else p - rowDim) = p - rowDim := by
        split
        · rename_i h; rw [hyr] at h; omega
        · rfl
      have e2 : (if y.cols = 1 then 0 else k) = k := by
        split
        · rename_i h; rw [hyk] at h; omega
        · rfl
      rw [e1, e2, hy2.entry (by omega) hk, List.length_cons, Finset.sum_range_succ']
      simp only [offset_cons, List.getD_cons_succ, List.getD_cons_zero, offset_zero, Nat.add_zero, Nat.zero_add]
      rw [add_assoc]
      congr 1
      rw [add_comm]
      congr 1
      refine Finset.sum_congr rfl fun l _ => Finset.sum_congr rfl fun q _ => ?_
      rw [show j + 1 + l = j + (l + 1) by omega, show colDim + c + (offset cs l + q) = colDim + (c + offset cs l + q) by omega]
    · rw [if_neg hp, if_neg hp, if_neg hp]

/-- All block rows. -/
theorem blockRows_ok {ops : Nat → Nat → Op} {x : Arr} {B : Nat → Nat → Nat → Nat → ℂ} (cols : List Nat) (hc : 1 ≤ x.cols)
    (hx : cols.sum ≤ x.rows) : ∀ (rows : List Nat) (i rowDim : Nat) (res : Arr), res.cols = x.cols →
      (∀ t < rows.length, ∀ l < cols.length, Rep (ops (i + t) l) (rows.getD t 0) (cols.getD l 0) (toM _ _ (B (i + t) l))) →
      (∀ t < rows.length, ∀ l < cols.length, (ops (i + t) l).complex = true → res.complex = true) →
      (x.complex = true → res.complex = true) →
      ∃ y, blockRows ops cols x rows i rowDim res = .ok y ∧ y.twoD = res.twoD ∧ y.rows = res.rows ∧ y.cols = res.cols ∧
        y.complex = res.complex ∧
        (∀ p k, p < rowDim → k < x.cols → y.e p k = res.e p k) ∧
        ∀ t < rows.length, ∀ p < rows.getD t 0, ∀ k < x.cols, y.e (rowDim + (offset rows t + p)) k =
          res.e (rowDim + (offset rows t + p)) k + ∑ l ∈ Finset.range cols.length, ∑ q ∈ Finset.range (cols.getD l 0),
            B (i + t) l p q * x.e (offset cols l + q) k
  | [], i, rowDim, res, _, _, _, _ =>
    ⟨res, rfl, rfl, rfl, rfl, rfl, fun _ _ _ _ => rfl, fun t ht => by simp at ht⟩
  | r :: rs, i, rowDim, res, hrc, hrep, hcomp, hxc => by
    obtain ⟨y, hy1, hy2, hy3, hy4, hy5, hy6⟩ := blockRow_ok (ops := ops i) (x := x) (rowDim := rowDim) (n := r) (B := B i) hc cols 0 0 res
      (by omega) hrc (fun l hl => by
        have := hrep 0 (by simp) l hl
        rw [List.getD_cons_zero, Nat.add_zero] at this
        rw [Nat.zero_add]; exact this)
      (fun l hl hh => hcomp 0 (by simp) l hl (by simpa using hh)) hxc
    rw [blockRows, hy1, ok_bind]
    obtain ⟨z, hz1, hz2, hz3, hz4, hz5, hz6, hz7⟩ := blockRows_ok (ops := ops) (x := x) (B := B) cols hc hx rs (i + 1) (rowDim + r) y
      (hy4.trans hrc)
      (fun t ht l hl => by
        have := hrep (t + 1) (by simpa using ht) l hl
        rw [List.getD_cons_succ, show i + (t + 1) = i + 1 + t by omega] at this
        exact this)
      (fun t ht l hl hh => by
        rw [hy5]
        exact hcomp (t + 1) (by simpa using ht) l hl (by rw [show i + (t + 1) = i + 1 + t by omega]; exact hh))
      (fun hh => by rw [hy5]; exact hxc hh)
    refine ⟨z, hz1, hz2.trans hy2, hz3.trans hy3, hz4.trans hy4, hz5.trans hy5, fun p k hp hk => ?_, fun t ht p hp k hk => ?_⟩
    · rw [hz6 p k (by omega) hk, hy6 p k hk, if_neg (by omega), add_zero]
    · cases t with
      | zero =>
        rw [List.getD_cons_zero] at hp
        rw [offset_zero, Nat.zero_add, hz6 _ k (by omega) hk, hy6 _ k hk, if_pos (by omega)]
        simp only [Nat.zero_add, Nat.add_zero, Nat.add_sub_cancel_left]
      | succ t =>
        rw [List.getD_cons_succ] at hp
        have ht' : t < rs.length := by simpa using ht
        have := hz7 t ht' p hp k hk
        rw [offset_cons, show rowDim + (r + offset rs t + p) = rowDim + r + (offset rs t + p) by omega, this, hy6 _ k hk,
          if_neg (by omega), add_zero]
        congr 1
        rw [show i + 1 + t = i + (t + 1) by omega]

/-- The product of a block matrix and a matrix. -/
theorem blocksMatmat_ok {rd cd : List Nat} {ops : Nat → Nat → Op} {B : Nat → Nat → Nat → Nat → ℂ} {E : Nat → Nat → ℂ}
    (hrep : ∀ i < rd.length, ∀ j < cd.length, Rep (ops i j) (rd.getD i 0) (cd.getD j 0) (toM _ _ (B i j)))
    (hE : IsBlockTable rd cd B E) (x : Arr) (hx : cd.sum ≤ x.rows) (hc : 1 ≤ x.cols) (ht : x.twoD = true) :
    ∃ y, blocksMatmat rd cd ops x = .ok y ∧ IsProduct (toM rd.sum cd.sum E) x y := by
  unfold blocksMatmat
  obtain ⟨y, hy1, hy2, hy3, hy4, hy5, -, hy7⟩ := blockRows_ok (ops := ops) (x := x) (B := B) cd hc hx rd 0 0
    ⟨true, rd.sum, x.cols, anyComplex rd cd ops || x.complex, fun _ _ => 0⟩ rfl
    (fun t ht l hl => by simpa using hrep t ht l hl)
    (fun t ht l hl hh => by
      have : anyComplex rd cd ops = true := by
        unfold anyComplex
        exact List.any_eq_true.mpr ⟨t, List.mem_range.mpr ht, List.any_eq_true.mpr ⟨l, List.mem_range.mpr hl, by simpa using hh⟩⟩
      simp [this])
    (fun hh => by simp [hh])
  refine ⟨y, hy1, by rw [hy2, ht], hy3, hy4, fun k hk => ?_⟩
  funext s
  obtain ⟨i, hi, p, hp, he⟩ := offset_exists rd s s.isLt
  have h1 := hy7 i hi p hp k hk
  rw [Nat.zero_add, ← he, zero_add] at h1
  rw [h1]
  simp only [Matrix.mulVec, dotProduct, toM, Matrix.of_apply]
  rw [← Finset.sum_range fun q => E s q * x.e q k]
  have h2 := sum_blocks (fun q => E s q * x.e q k) cd 0
  simp only [Nat.zero_add] at h2
  rw [h2]
  refine Finset.sum_congr rfl fun l hl => Finset.sum_congr rfl fun q hq => ?_
  rw [he, hE i hi l (Finset.mem_range.mp hl) p hp q (Finset.mem_range.mp hq), Nat.zero_add]

/-- The operators that stand for block matrices. -/
inductive BRep : BOp → (rd cd : List Nat) → Matrix (Fin rd.sum) (Fin cd.sum) ℂ → Prop where
  | blocks {ops : Nat → Nat → Op} {rd cd : List Nat} {B : Nat → Nat → Nat → Nat → ℂ} {E : Nat → Nat → ℂ}
      (hrep : ∀ i < rd.length, ∀ j < cd.length, Rep (ops i j) (rd.getD i 0) (cd.getD j 0) (toM _ _ (B i j)))
      (hE : IsBlockTable rd cd B E) : BRep (.blocks rd cd ops) rd cd (toM _ _ E)
  | sum {a b : BOp} {rd cd : List Nat} {A B : Matrix (Fin rd.sum) (Fin cd.sum) ℂ} (ha : BRep a rd cd A) (hb : BRep b rd cd B) :
      BRep (.sum a b) rd cd (A + B)
  | product {a b : BOp} {rd kd cd : List Nat} {A : Matrix (Fin rd.sum) (Fin kd.sum) ℂ} {B : Matrix (Fin kd.sum) (Fin cd.sum) ℂ}
      (ha : BRep a rd kd A) (hb : BRep b kd cd B) : BRep (.product a b) rd cd (A * B)
  | scaled {a : BOp} {rd cd : List Nat} {A : Matrix (Fin rd.sum) (Fin cd.sum) ℂ} (s : Scalar) (ha : BRep a rd cd A) :
      BRep (.scaled a s) rd cd (s.value • A)

section
variable {op : BOp} {rd cd : List Nat} {M : Matrix (Fin rd.sum) (Fin cd.sum) ℂ}

theorem BRep.cast {N : Matrix (Fin rd.sum) (Fin cd.sum) ℂ} (h : BRep op rd cd M) (e : M = N) : BRep op rd cd N := e ▸ h

theorem BRep.dims (h : BRep op rd cd M) : op.rowDims = rd ∧ op.colDims = cd ∧ op.shape = (rd.sum, cd.sum) ∧
    op.ndims = (rd.length, cd.length) := by
  induction h with
  | blocks => exact ⟨rfl, rfl, rfl, rfl⟩
  | sum ha hb iha ihb => exact iha
  | product ha hb iha ihb =>
    refine ⟨iha.1, ihb.2.1, ?_, ?_⟩
    · simp [BOp.shape, iha, ihb]
    · simp [BOp.ndims, iha, ihb]
  | scaled s ha ih => exact ih

theorem BRep.rawMatvec (h : BRep op rd cd M) : ∀ x : Arr, x.rows = cd.sum → 1 ≤ x.cols → (x.twoD = false → x.cols = 1) →
    ∃ y, op.rawMatvec x = .ok y ∧ IsProduct M x y := by
  induction h with
  | @blocks ops rd cd B E hrep hE =>
    intro x hx hc ht
    rw [BOp.rawMatvec]
    cases h2 : x.twoD with
    | true =>
      rw [if_pos rfl]
      exact blocksMatmat_ok hrep hE x (le_of_eq hx.symm) hc h2
    | false =>
      rw [if_neg (by simp)]
      obtain ⟨y, hy1, hy2⟩ := wrapVec_ok (r := rd.sum) (M := toM rd.sum cd.sum E) (x := { x with twoD := true, cols := 1 })
        (raw := blocksMatmat rd cd ops) hx rfl 
        (blocksMatmat_ok hrep hE { x with twoD := true, cols := 1 } (le_of_eq hx.symm) (le_refl 1) rfl)
      rw [hy1, ok_bind]
      refine ⟨_, rfl, h2.symm, hy2.2.1, ?_, fun k hk => ?_⟩
      · rw [ht h2]; exact hy2.2.2.1
      · rw [ht h2] at hk
        exact hy2.2.2.2 k hk
  | sum ha hb iha ihb =>
    intro x hx hc ht
    obtain ⟨u, hu1, hu2⟩ := iha x hx hc ht
    obtain ⟨v, hv1, hv2⟩ := ihb x hx hc ht
    rw [BOp.rawMatvec, hu1, ok_bind, hv1, ok_bind]
    exact add_ok hu2 hv2
  | product ha hb iha ihb =>
    intro x hx hc ht
    obtain ⟨u, hu1, hu2⟩ := ihb x hx hc ht
    obtain ⟨y, hy1, hy2⟩ := iha u hu2.2.1 (by rw [hu2.2.2.1]; exact hc) (by rw [hu2.1, hu2.2.2.1]; exact ht)
    rw [BOp.rawMatvec, hu1, ok_bind, hy1]
    exact ⟨y, rfl, comp_ok hu2 hy2⟩
  | scaled s ha ih =>
    intro x hx hc ht
    obtain ⟨u, hu1, hu2⟩ := ih x hx hc ht
    rw [BOp.rawMatvec, hu1, ok_bind]
    exact ⟨_, rfl, smul_ok s hu2⟩

theorem BRep.acts (h : BRep op rd cd M) : BActs op M := by
  refine ⟨h.dims.2.2.1, fun x hx hc ht => ⟨h.rawMatvec x hx hc ht, fun h1 => ?_, fun h2 => ?_⟩⟩
  · unfold BOp.matvec
    rw [h.dims.2.2.1]
    exact wrapVec_ok hx h1 (h.rawMatvec x hx hc ht)
  · unfold BOp.matmat
    rw [h.dims.2.2.1]
    exact wrapMat_ok hx h2 (h.rawMatvec x hx hc ht)

theorem anyDiffer_self (a : List Nat) : anyDiffer a a = false := by
  unfold anyDiffer
  rw [if_pos rfl]
  induction a with
  | nil => rfl
  | cons c a ih => rw [List.zip_cons_cons, List.any_cons, ih]; simp

theorem BRep.add {a b : BOp} {A B : Matrix (Fin rd.sum) (Fin cd.sum) ℂ} (ha : BRep a rd cd A) (hb : BRep b rd cd B) :
    ∃ o, a.add b = .ok o ∧ BRep o rd cd (A + B) := by
  unfold BOp.add
  rw [ha.dims.1, hb.dims.1, ha.dims.2.1, hb.dims.2.1, anyDiffer_self, anyDiffer_self]
  exact ⟨_, rfl, BRep.sum ha hb⟩

theorem BRep.mul {a b : BOp} {kd : List Nat} {A : Matrix (Fin rd.sum) (Fin kd.sum) ℂ} {B : Matrix (Fin kd.sum) (Fin cd.sum) ℂ}
    (ha : BRep a rd kd A) (hb : BRep b kd cd B) : ∃ o, a.mul b = .ok o ∧ BRep o rd cd (A * B) := by
  unfold BOp.mul
  rw [ha.dims.2.1, hb.dims.1, anyDiffer_self]
  exact ⟨_, rfl, BRep.product ha hb⟩

theorem BRep.neg {a : BOp} {A : Matrix (Fin rd.sum) (Fin cd.sum) ℂ} (ha : BRep a rd cd A) : BRep a.neg rd cd (-A) :=
  (BRep.scaled ⟨-1, false⟩ ha).cast (by simp)

theorem bdenotes_brep {e : BExpr} (h : BDenotes e rd cd M) : ∃ op, e.eval = .ok op ∧ BRep op rd cd M := by
  induction h with
  | @blocks m n ops rd cd B E hm hn hb hc hE =>
    subst hm hn
    refine ⟨_, mkBlocks_exists rfl rfl hc (fun i hi j hj o ho => ((hb i hi j hj).1 o ho).rep.shape), BRep.blocks (fun i hi j hj => ?_) hE⟩
    cases ho : ops i j with
    | some o => exact ((hb i hi j hj).1 o ho).rep
    | none =>
      refine (Rep.zero _ _).cast ?_
      ext p q
      exact ((hb i hi j hj).2 ho p p.isLt q q.isLt).symm
  | add ha hb iha ihb =>
    obtain ⟨a, ha1, ha2⟩ := iha
    obtain ⟨b, hb1, hb2⟩ := ihb
    obtain ⟨o, h1, h2⟩ := ha2.add hb2
    exact ⟨o, by rw [BExpr.eval, ha1, ok_bind, hb1, ok_bind, h1], h2⟩
  | sub ha hb iha ihb =>
    obtain ⟨a, ha1, ha2⟩ := iha
    obtain ⟨b, hb1, hb2⟩ := ihb
    obtain ⟨o, h1, h2⟩ := ha2.add hb2.neg
    exact ⟨o, by rw [BExpr.eval, ha1, ok_bind, hb1, ok_bind]; exact h1, h2.cast (sub_eq_add_neg _ _).symm⟩
  | neg ha iha =>
    obtain ⟨a, ha1, ha2⟩ := iha
    exact ⟨_, by rw [BExpr.eval, ha1, ok_bind], ha2.neg⟩
  | smul s ha iha =>
    obtain ⟨a, ha1, ha2⟩ := iha
    exact ⟨_, by rw [BExpr.eval, ha1, ok_bind, BOp.smul], BRep.scaled s ha2⟩
  | mul ha hb iha ihb =>
    obtain ⟨a, ha1, ha2⟩ := iha
    obtain ⟨b, hb1, hb2⟩ := ihb
    obtain ⟨o, h1, h2⟩ := ha2.mul hb2
    exact ⟨o, by rw [BExpr.eval, ha1, ok_bind, hb1, ok_bind, h1], h2⟩

end

theorem anyDiffer_of_ne {a b : List Nat} (h : a ≠ b) (hl : a.length = b.length ∨ (a.length ≠ 1 ∧ b.length ≠ 1)) :
    anyDiffer a b = true := by
  unfold anyDiffer
  split
  · rename_i hlen
    by_contra hh
    apply h
    simp only [List.any_eq_true, not_exists, not_and, bne_iff_ne, ne_eq, not_not, Prod.forall] at hh
    apply List.ext_getElem hlen
    intro i h1 h2
    exact hh _ _ (List.getElem_mem (l := a.zip b) (n := i) (by simp; omega) |> fun hm => by simpa using hm)
  · rename_i hlen
    rcases hl with hl | ⟨h1, h2⟩
    · exact absurd hl hlen
    · rw [if_neg h1, if_neg h2]

/-! ### Blocks -/

/-- Entry `(p, q)` of block `(i, j)`. -/
def blockEntry {rd cd : List Nat} (M : Matrix (Fin rd.sum) (Fin cd.sum) ℂ) (i j p q : Nat) : ℂ :=
  if h : offset rd i + p < rd.sum ∧ offset cd j + q < cd.sum then M ⟨_, h.1⟩ ⟨_, h.2⟩ else 0

theorem blockEntry_isBlock {rd cd : List Nat} (M : Matrix (Fin rd.sum) (Fin cd.sum) ℂ) (i j : Nat) :
    IsBlock M i j (toM (rd.getD i 0) (cd.getD j 0) (blockEntry M i j)) := by
  refine ⟨rfl, rfl, fun p q s t hs ht => ?_⟩
  simp only [toM, Matrix.of_apply, blockEntry]
  rw [dif_pos ⟨by rw [← hs]; exact s.isLt, by rw [← ht]; exact t.isLt⟩]
  congr 1
  · exact Fin.ext hs
  · exact Fin.ext ht

/-- The entry of a product of block matrices. -/
theorem blockEntry_mul {rd kd cd : List Nat} (A : Matrix (Fin rd.sum) (Fin kd.sum) ℂ) (B : Matrix (Fin kd.sum) (Fin cd.sum) ℂ) {i j : Nat}
    (hi : i < rd.length) (hj : j < cd.length) : toM (rd.getD i 0) (cd.getD j 0) (blockEntry (A * B) i j) =
      ∑ k ∈ Finset.range kd.length, toM (rd.getD i 0) (kd.getD k 0) (blockEntry A i k) * toM (kd.getD k 0) (cd.getD j 0) (blockEntry B k j) := by
  ext p q
  rw [Matrix.sum_apply]
  have h1 := offset_le rd hi p.isLt
  have h2 := offset_le cd hj q.isLt
  simp only [toM, Matrix.of_apply, Matrix.mul_apply]
  rw [show blockEntry (A * B) i j p q = (A * B) ⟨_, h1⟩ ⟨_, h2⟩ from dif_pos ⟨h1, h2⟩, Matrix.mul_apply]
  -- entries by natural numbers
  let f : Nat → ℂ := fun t => if h : t < kd.sum then A ⟨_, h1⟩ ⟨t, h⟩ * B ⟨t, h⟩ ⟨_, h2⟩ else 0
  have e1 : ∑ x : Fin kd.sum, A ⟨offset rd i + p, h1⟩ x * B x ⟨offset cd j + q, h2⟩ = ∑ t ∈ Finset.range kd.sum, f t := by
    rw [Finset.sum_range]
    refine Finset.sum_congr rfl fun x _ => ?_
    simp only [f]
    rw [dif_pos x.isLt]
  rw [e1]
  have e2 := sum_blocks f kd 0
  simp only [Nat.zero_add] at e2
  rw [e2]
  refine Finset.sum_congr rfl fun k hk => ?_
  rw [Finset.sum_range]
  refine Finset.sum_congr rfl fun t _ => ?_
  have h3 := offset_le kd (Finset.mem_range.mp hk) t.isLt
  simp only [f, blockEntry]
  rw [dif_pos h3, dif_pos ⟨h1, h3⟩, dif_pos ⟨h3, h2⟩]

theorem foldlM_sum {r c : Nat} {f : Nat → Res Op} {F : Nat → Matrix (Fin r) (Fin c) ℂ} : ∀ (l : List Nat) (res : Op) (R : Matrix (Fin r) (Fin c) ℂ),
    Rep res r c R → (∀ k ∈ l, ∃ o, f k = .ok o ∧ Rep o r c (F k)) →
      ∃ o, l.foldlM (fun (res : Op) k => do let w ← f k; res.add w) res = .ok o ∧ Rep o r c (R + (l.map F).sum)
  | [], res, R, h, _ => ⟨res, rfl, h.cast (by simp)⟩
  | k :: l, res, R, h, hf => by
    obtain ⟨w, hw1, hw2⟩ := hf k (by simp)
    obtain ⟨u, hu1, hu2⟩ := h.add hw2
    obtain ⟨o, ho1, ho2⟩ := foldlM_sum l u _ hu2 (fun k hk => hf k (by simp [hk]))
    refine ⟨o, ?_, ho2.cast (by rw [List.map_cons, List.sum_cons, add_assoc])⟩
    rw [List.foldlM_cons, hw1, ok_bind, hu1, ok_bind, ho1]

theorem BRep.getItem {op : BOp} {rd cd : List Nat} {M : Matrix (Fin rd.sum) (Fin cd.sum) ℂ} (h : BRep op rd cd M) :
    ∀ i < rd.length, ∀ j < cd.length, ∃ o, op.getItem i j = .ok o ∧ Rep o (rd.getD i 0) (cd.getD j 0) (toM _ _ (blockEntry M i j)) := by
  induction h with
  | @blocks ops rd cd B E hrep hE =>
    intro i hi j hj
    refine ⟨_, rfl, (hrep i hi j hj).cast ?_⟩
    ext p q
    have h1 := offset_le rd hi p.isLt
    have h2 := offset_le cd hj q.isLt
    simp only [toM, Matrix.of_apply, blockEntry]
    rw [dif_pos ⟨h1, h2⟩]
    exact (hE i hi j hj p p.isLt q q.isLt).symm
  | @sum a b rd cd A B ha hb iha ihb =>
    intro i hi j hj
    obtain ⟨u, hu1, hu2⟩ := iha i hi j hj
    obtain ⟨v, hv1, hv2⟩ := ihb i hi j hj
    obtain ⟨o, h1, h2⟩ := hu2.add hv2
    refine ⟨o, by rw [BOp.getItem, hu1, ok_bind, hv1, ok_bind, h1], h2.cast ?_⟩
    ext p q
    have h1 := offset_le rd hi p.isLt
    have h2 := offset_le cd hj q.isLt
    simp only [toM, Matrix.add_apply, Matrix.of_apply, blockEntry]
    rw [dif_pos ⟨h1, h2⟩, dif_pos ⟨h1, h2⟩, dif_pos ⟨h1, h2⟩]
  | @scaled a rd cd A s ha ih =>
    intro i hi j hj
    obtain ⟨u, hu1, hu2⟩ := ih i hi j hj
    refine ⟨_, by rw [BOp.getItem, hu1, ok_bind], (hu2.smul s).cast ?_⟩
    ext p q
    have h1 := offset_le rd hi p.isLt
    have h2 := offset_le cd hj q.isLt
    simp only [toM, Matrix.smul_apply, Matrix.of_apply, blockEntry]
    rw [dif_pos ⟨h1, h2⟩, dif_pos ⟨h1, h2⟩]
  | @product a b rd kd cd A B ha hb iha ihb =>
    intro i hi j hj
    have hk : ∀ k ∈ List.range kd.length, ∃ o, (do let u ← a.getItem i k; let v ← b.getItem k j; u.mul v) = Except.ok o ∧
        Rep o (rd.getD i 0) (cd.getD j 0) (toM _ _ (blockEntry A i k) * toM (kd.getD k 0) _ (blockEntry B k j)) := by
      intro k hk
      obtain ⟨u, hu1, hu2⟩ := iha i hi k (List.mem_range.mp hk)
      obtain ⟨v, hv1, hv2⟩ := ihb k (List.mem_range.mp hk) j hj
      obtain ⟨o, h1, h2⟩ := hu2.mul hv2
      exact ⟨o, by rw [hu1, ok_bind, hv1, ok_bind, h1], h2⟩
    obtain ⟨o, h1, h2⟩ := foldlM_sum (List.range kd.length) (.zero (rd.getD i 0) (cd.getD j 0)) 0 (Rep.zero _ _) hk
    refine ⟨o, ?_, h2.cast ?_⟩
    · rw [BOp.getItem, ha.dims.1, hb.dims.2.1, ha.dims.2.2.2]
      rw [← h1]
      simp only [bind_assoc]
    · rw [zero_add, blockEntry_mul A B hi hj]
      rw [← List.sum_toFinset _ List.nodup_range, List.toFinset_range]
end

end Verif.PyOp
