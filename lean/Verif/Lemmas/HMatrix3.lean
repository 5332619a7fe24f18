import Verif.Lemmas.HMatrix2
/-
The local and global result of `HMatrix::apply`.
-/
set_option linter.unusedSectionVars false
namespace Verif.HMat
open Finset NTree CTree HMatrix

/-- What C01 says about a permutation. -/
structure PermOK (n : Nat) (p : DofPermutation) : Prop where
  o2h : p.o2h.Perm (List.range n)
  h2o : p.h2o.Perm (List.range n)
  fwd : ∀ i, i < n → ∃ j, j < n ∧ p.o2h[i]? = some j ∧ p.h2o[j]? = some i
  bwd : ∀ j, j < n → ∃ i, i < n ∧ p.h2o[j]? = some i ∧ p.o2h[i]? = some j

theorem permOK_of_dofPermutation {G : Type} {geo : List Nat → G} {srt : Sorter G} {minB : Int}
    {n : Nat} {p : DofPermutation} (h : dofPermutation geo srt minB n = some p) : PermOK n p := by
  obtain ⟨q, e, _, _, h1, h2, h3, h4⟩ := C01_dof_permutation_bijective geo srt minB n
  rw [h] at e; injection e with e; subst e
  exact ⟨h1, h2, h3, h4⟩

section
variable {K : Type} [CommRing K]

theorem sum_range_list (n : Nat) (f : Nat → K) :
    ∑ i ∈ range n, f i = ((List.range n).map f).sum := by
  induction n with
  | zero => simp
  | succ n ih => rw [Finset.sum_range_succ, ih, List.range_succ]; simp

theorem sum_perm_list (n : Nat) (l : List Nat) (hl : l.Perm (List.range n)) (f : Nat → K) :
    ∑ J ∈ range n, f (l[J]?.getD 0) = ∑ i ∈ range n, f i := by
  rw [sum_range_list, sum_range_list]
  have hlen : l.length = n := by rw [hl.length_eq]; simp
  have e : (List.range n).map (fun J => l[J]?.getD 0) = l := by
    apply List.ext_getElem
    · simp [hlen]
    · intro k h1 h2
      simp [List.getElem?_eq_getElem h2]
  have : (List.range n).map (fun J => f (l[J]?.getD 0)) = l.map f := by
    conv_rhs => rw [← e]
    rw [List.map_map]; rfl
  rw [this]
  exact (hl.map f).sum_eq

end

variable {G K : Type} [CommRing K] [StarRing K] [DecidableEq K]

/-- The permutation of the output index, for a transposition mode. -/
def HSetup.outPerm (s : HSetup G) (t : TransposeMode) : DofPermutation :=
  if t.keepsRows then s.pR else s.pC
/-- The permutation of the input index. -/
def HSetup.inPerm (s : HSetup G) (t : TransposeMode) : DofPermutation :=
  if t.keepsRows then s.pC else s.pR

theorem outPermOK (s : HSetup G) (t : TransposeMode) : PermOK (s.outRows t) (s.outPerm t) := by
  unfold HSetup.outRows HSetup.outPerm
  split
  · exact permOK_of_dofPermutation s.hR
  · exact permOK_of_dofPermutation s.hC

theorem inPermOK (s : HSetup G) (t : TransposeMode) : PermOK (s.inRows t) (s.inPerm t) := by
  unfold HSetup.inRows HSetup.inPerm
  split
  · exact permOK_of_dofPermutation s.hC
  · exact permOK_of_dofPermutation s.hR

/-- Input in H-matrix numbering, scaled by `alpha`. -/
def HSetup.xhat (s : HSetup G) (t : TransposeMode) (α : K) (X : Mx K) : Mx K :=
  ⟨X.rows, X.cols, fun J j => α * X.e ((s.inPerm t).h2o[J]?.getD 0) j⟩

theorem contribution_congr (s : HSetup G) (b : NTree (BlockData G)) (hb : b ∈ leafNodes s.tree)
    (d : HData K) (t : TransposeMode) (x x' : Mx K) (r j : Nat)
    (h : ∀ J, J < s.inRows t → x.e J j = x'.e J j) :
    contribution t b.data d x r j = contribution t b.data d x' r j := by
  have := leaf_ranges s b hb
  unfold contribution
  unfold HSetup.inRows at h
  split
  · rename_i hk
    rw [if_pos hk] at h
    split
    · refine Finset.sum_congr rfl fun k hk => ?_
      rw [Finset.mem_range] at hk
      rw [h _ (by omega)]
    · rfl
  · rename_i hk
    rw [if_neg hk] at h
    split
    · refine Finset.sum_congr rfl fun k hk => ?_
      rw [Finset.mem_range] at hk
      rw [h _ (by omega)]
    · rfl

/-- Contribution of the leaf at position `k`. -/
def HSetup.contr (s : HSetup G) (compress : BlockData G → HData K) (t : TransposeMode) (x : Mx K)
    (I j k : Nat) : K :=
  match s.tree.leafNodes[k]? with
  | some b => contribution t b.data (compress b.data) x I j
  | none => 0

theorem plain_iff (t : TransposeMode) : (t = .NOTRANS ∨ t = .CONJ) ↔ t.keepsRows = true := by
  cases t <;> simp [TransposeMode.keepsRows]

theorem localRun_process (s : HSetup G) (compress : BlockData G → HData K)
    (fits : s.CompressorFits compress) (p r : Nat) (hp : 0 < p) (t : TransposeMode) (α β : K)
    (X : Mx K) (Y : Mx (Cell K)) (hX : X.rows = s.inRows t) (hY : Y.rows = s.outRows t)
    (hq : X.cols = Y.cols) :
    (∃ Y', LocalRun (s.process compress p r) t α β X Y Y') ∧
    ∀ Y', LocalRun (s.process compress p r) t α β X Y Y' →
      Y'.rows = s.outRows t ∧ Y'.cols = Y.cols ∧
      ∀ i j I, i < s.outRows t → j < Y.cols → (s.outPerm t).o2h[i]? = some I →
        Y'.e i j = (if β = 0 ∨ r ≠ 0 then some 0 else (Y.e i j).map (β * ·)).map
          (· + ((roundRobin r s.tree.leafNodes.length p).map
            (s.contr compress t (s.xhat t α X) I j)).sum) := by
  obtain ⟨hml, htree, hrp, hcp, hrank, hdata⟩ := process_spec s compress p r hp
  have okO := outPermOK s t
  have okI := inPermOK s t
  -- the permutations used
  have selX : ∀ g, (s.process compress p r).permuteMatToHMatDofs X
      (if t = .NOTRANS ∨ t = .CONJ then .COL else .ROW) g = permuteRows (s.inPerm t).o2h X g := by
    intro g
    unfold HMatrix.permuteMatToHMatDofs HSetup.inPerm
    rw [hrp, hcp]
    by_cases hk : t.keepsRows = true
    · rw [if_pos ((plain_iff t).mpr hk), if_pos hk]
    · rw [if_neg (fun h => hk ((plain_iff t).mp h)), if_neg hk]
  have selY : ∀ (Z : Mx (Cell K)) g, (s.process compress p r).permuteMatToHMatDofs Z
      (if t = .NOTRANS ∨ t = .CONJ then .ROW else .COL) g = permuteRows (s.outPerm t).o2h Z g := by
    intro Z g
    unfold HMatrix.permuteMatToHMatDofs HSetup.outPerm
    rw [hrp, hcp]
    by_cases hk : t.keepsRows = true
    · rw [if_pos ((plain_iff t).mpr hk), if_pos hk]
    · rw [if_neg (fun h => hk ((plain_iff t).mp h)), if_neg hk]
  have selB : ∀ (Z : Mx (Cell K)) g, (s.process compress p r).permuteMatToOriginalDofs Z
      (if t = .NOTRANS ∨ t = .CONJ then .ROW else .COL) g = permuteRows (s.outPerm t).h2o Z g := by
    intro Z g
    unfold HMatrix.permuteMatToOriginalDofs HSetup.outPerm
    rw [hrp, hcp]
    by_cases hk : t.keepsRows = true
    · rw [if_pos ((plain_iff t).mpr hk), if_pos hk]
    · rw [if_neg (fun h => hk ((plain_iff t).mp h)), if_neg hk]
  have hdata' : ∀ k ∈ (s.process compress p r).myLeafs, ∃ b d,
      (s.process compress p r).tree.leafNodes[k]? = some b ∧
      (s.process compress p r).data k = some d := by
    intro k hk
    obtain ⟨b, h1, h2⟩ := hdata k hk
    exact ⟨b, _, by rw [htree]; exact h1, h2⟩
  set Y₁ : Mx (Cell K) :=
    if β = 0 ∨ (s.process compress p r).rank ≠ 0 then ⟨Y.rows, Y.cols, fun _ _ => some 0⟩
    else ⟨Y.rows, Y.cols, fun i j => (Y.e i j).map (β * ·)⟩ with hY₁
  have hY1r : Y₁.rows = s.outRows t := by rw [hY₁]; split <;> exact hY
  have hY1c : Y₁.cols = Y.cols := by rw [hY₁]; split <;> rfl
  have hY1e : ∀ i j, Y₁.e i j = (if β = 0 ∨ r ≠ 0 then some 0 else (Y.e i j).map (β * ·)) := by
    intro i j; rw [hY₁, hrank]; split <;> rfl
  constructor
  · obtain ⟨xP, hx, _⟩ := permuteRows_spec _ _ okI.o2h X hX (fun _ _ => 0)
    obtain ⟨yP, hy, hyr, hyc, _⟩ := permuteRows_spec _ _ okO.o2h Y₁ hY1r (fun _ _ => none)
    obtain ⟨ts, hts, _⟩ := tasks_spec (s.process compress p r) t (xP.smul α) hdata'
    have := foldl_rowAdd ts.flatten yP 0 0
    obtain ⟨Y', hY', _⟩ := permuteRows_spec _ _ okO.h2o (ts.flatten.foldl rowAdd yP)
      (by rw [this.1]; exact hyr) (fun _ _ => none)
    exact ⟨Y', fun _ _ => 0, fun _ _ => none, fun _ _ => none, xP, yP, ts, ts.flatten,
      by rw [selX]; exact hx, by rw [selY]; exact hy, hts, interleaving_flatten ts,
      by rw [selB]; exact hY'⟩
  · rintro Y' ⟨g₁, g₂, g₃, xP, yP, ts, sched, h1, h2, h3, h4, h5⟩
    rw [selX] at h1
    rw [← hY₁, selY] at h2
    rw [selB] at h5
    obtain ⟨xP', hx, hxr, hxc, hxe⟩ := permuteRows_spec _ _ okI.o2h X hX g₁
    rw [h1] at hx; injection hx with hx; subst hx
    obtain ⟨yP', hy, hyr, hyc, hye⟩ := permuteRows_spec _ _ okO.o2h Y₁ hY1r g₂
    rw [h2] at hy; injection hy with hy; subst hy
    obtain ⟨ts', hts, hsum⟩ := tasks_spec (s.process compress p r) t (xP.smul α) hdata'
    rw [h3] at hts; injection hts with hts; subst hts
    have hfold := fun i j => foldl_rowAdd sched yP i j
    obtain ⟨Y'', hY', hYr, hYc, hYe⟩ := permuteRows_spec _ _ okO.h2o (sched.foldl rowAdd yP)
      (by rw [(hfold 0 0).1]; exact hyr) g₃
    rw [h5] at hY'; injection hY' with hY'; subst hY'
    refine ⟨hYr, by rw [hYc, (hfold 0 0).2.1, hyc, hY1c], ?_⟩
    intro i j I hi hj hI
    obtain ⟨I', _, e1, e2⟩ := okO.fwd i hi
    rw [hI] at e1; injection e1 with e1; subst e1
    have hjy : j < yP.cols := by rw [hyc, hY1c]; exact hj
    rw [hYe I i e2 j (by rw [(hfold 0 0).2.1]; exact hjy), (hfold I j).2.2 hjy,
      hye i I hI j (by rw [hY1c]; exact hj), hY1e]
    congr 1
    funext z
    congr 1
    rw [(h4.perm.map _).sum_eq, hsum, hml, htree]
    congr 1
    apply List.map_congr_left
    intro k hk
    obtain ⟨b, hb1, hb2⟩ := hdata k (by rw [hml]; exact hk)
    simp only [hb1, hb2, HSetup.contr]
    have hbm : b ∈ leafNodes s.tree := List.mem_of_getElem? hb1
    rw [leafUpdates_sum t b.data _ _ (fits b hbm)]
    apply contribution_congr s b hbm
    intro J hJ
    obtain ⟨l, hl1, hl2, hl3⟩ := okI.bwd J hJ
    have hjx : j < X.cols := by rw [hq]; exact hj
    show α * xP.e J j = α * X.e ((s.inPerm t).h2o[J]?.getD 0) j
    rw [hxe l J hl3 j hjx, hl2]; rfl

theorem foldl_allReduce (Ls : List (Mx (Cell K))) (i j : Nat) (v : Nat → K) (a : K)
    (h : ∀ r (hr : r < Ls.length), Ls[r].e i j = some (v r)) :
    Ls.foldl (fun acc Y => acc.bind fun a => (Y.e i j).map (a + ·)) (some a) =
      some (a + ((List.range Ls.length).map v).sum) := by
  induction Ls generalizing a v with
  | nil => simp
  | cons L Ls ih =>
    rw [List.foldl_cons]
    have h0 := h 0 (by simp)
    simp only [List.getElem_cons_zero] at h0
    simp only [h0, Option.bind_some, Option.map_some]
    rw [ih (fun r => v (r + 1)) (a + v 0) (by
      intro r hr
      have := h (r + 1) (by simp; omega)
      simpa using this)]
    rw [List.length_cons, List.range_succ_eq_map, List.map_cons, List.sum_cons, List.map_map]
    simp only [Function.comp_def, Nat.succ_eq_add_one]
    rw [add_assoc]

theorem map_range_getElem {β : Type} (l : List β) (f : β → K) :
    ((List.range l.length).map (fun k => match l[k]? with | some b => f b | none => 0)) = l.map f := by
  apply List.ext_getElem
  · simp
  · intro k h1 h2
    have : k < l.length := by simpa using h2
    simp [List.getElem?_eq_getElem this]

/-- The sum over all processes of the leaf contributions is the product with `op(M)`. -/
theorem sum_all_processes (s : HSetup G) (compress : BlockData G → HData K) (M : Nat → Nat → K)
    (rep : s.Represents compress M) (p : Nat) (hp : 0 < p) (t : TransposeMode) (α : K) (X : Mx K)
    (i j I : Nat) (hi : i < s.outRows t) (hI : (s.outPerm t).o2h[i]? = some I) :
    ((List.range p).map (fun r => ((roundRobin r s.tree.leafNodes.length p).map
      (s.contr compress t (s.xhat t α X) I j)).sum)).sum =
    α * ∑ l ∈ range (s.inRows t), opEntry t M i l * X.e l j := by
  have okO := outPermOK s t
  have okI := inPermOK s t
  have okR : PermOK s.rows s.pR := permOK_of_dofPermutation s.hR
  have okC : PermOK s.cols s.pC := permOK_of_dofPermutation s.hC
  have e1 : ((List.range p).map (fun r => ((roundRobin r s.tree.leafNodes.length p).map
      (s.contr compress t (s.xhat t α X) I j)).sum)).sum =
      (((List.range p).flatMap (fun r => roundRobin r s.tree.leafNodes.length p)).map
        (s.contr compress t (s.xhat t α X) I j)).sum := by
    induction (List.range p) with
    | nil => simp
    | cons a l ih => simp only [List.map_cons, List.sum_cons, ih, List.flatMap_cons, List.map_append,
        List.sum_append]
  rw [e1, ((roundRobin_perm _ p hp).map _).sum_eq]
  have e2 : (List.range s.tree.leafNodes.length).map (s.contr compress t (s.xhat t α X) I j) =
      s.tree.leafNodes.map (fun b => contribution t b.data (compress b.data) (s.xhat t α X) I j) := by
    apply List.ext_getElem
    · simp
    · intro k h1 h2
      have : k < s.tree.leafNodes.length := by simpa using h2
      simp [HSetup.contr, List.getElem?_eq_getElem this]
  rw [e2]
  obtain ⟨I', hI'lt, e3, e4⟩ := okO.fwd i hi
  rw [hI] at e3; injection e3 with e3; subst e3
  rw [sum_contributions s compress
    (fun I J => M (s.pR.h2o[I]?.getD 0) (s.pC.h2o[J]?.getD 0)) ?_ t (s.xhat t α X) I j hI'lt]
  · have e5 : ∀ J, opEntry t (fun I J => M (s.pR.h2o[I]?.getD 0) (s.pC.h2o[J]?.getD 0)) I J =
        opEntry t M i ((s.inPerm t).h2o[J]?.getD 0) := by
      intro J
      unfold HSetup.inPerm
      unfold HSetup.outPerm at e4
      cases t <;> simp only [TransposeMode.keepsRows, if_true, Bool.false_eq_true, if_false] at e4 ⊢ <;>
        simp [opEntry, e4]
    simp only [e5, HSetup.xhat]
    rw [← sum_perm_list _ _ okI.h2o (fun l => opEntry t M i l * X.e l j), Finset.mul_sum]
    refine Finset.sum_congr rfl fun J _ => by ring
  · intro b hb I J hI2 hJ2 hcov
    obtain ⟨i', _, a1, a2⟩ := okR.bwd I hI2
    obtain ⟨j', _, b1, b2⟩ := okC.bwd J hJ2
    rw [a1, b1]
    exact rep b hb i' j' I J a2 b2 hcov

end Verif.HMat
