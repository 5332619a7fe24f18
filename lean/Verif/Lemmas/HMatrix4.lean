import Verif.Lemmas.HMatrix3
/-
The result of `HMatrix::apply` on any number of processes.
-/
set_option linter.unusedSectionVars false
namespace Verif.HMat
open Finset NTree CTree HMatrix

variable {G K : Type} [CommRing K] [StarRing K] [DecidableEq K]

theorem list_range_sum_ite (p : Nat) (hp : 0 < p) (b : K) (c : Nat → K) :
    ((List.range p).map (fun r => (if r = 0 then b else 0) + c r)).sum =
      b + ((List.range p).map c).sum := by
  obtain ⟨q, rfl⟩ : ∃ q, p = q + 1 := ⟨p - 1, by omega⟩
  rw [List.range_succ_eq_map]
  simp only [List.map_cons, List.sum_cons, List.map_map, if_true, Function.comp_def]
  simp [add_assoc]

theorem run_spec (s : HSetup G) (compress : BlockData G → HData K) (M : Nat → Nat → K)
    (fits : s.CompressorFits compress) (rep : s.Represents compress M) (p : Nat) (hp : 0 < p)
    (t : TransposeMode) (α β : K) (X : Mx K) (Ys : List (Mx (Cell K))) (hl : Ys.length = p)
    (hX : X.rows = s.inRows t) (hY : ∀ Y ∈ Ys, Y.rows = s.outRows t ∧ Y.cols = X.cols)
    (Y0 : Mx (Cell K)) (h0 : Ys[0]? = some Y0) (hdef : β ≠ 0 → Y0.Defined) :
    (∃ Y', Run ((List.range p).map (s.process compress p)) t α β X Ys Y') ∧
    ∀ Y', Run ((List.range p).map (s.process compress p)) t α β X Ys Y' →
      Y'.rows = s.outRows t ∧ Y'.cols = X.cols ∧
      ∀ i j, i < s.outRows t → j < X.cols →
        Y'.e i j = some (β * (Y0.e i j).getD 0 +
          α * ∑ l ∈ range (s.inRows t), opEntry t M i l * X.e l j) := by
  have hlen : ((List.range p).map (s.process compress p)).length = p := by simp
  have loc : ∀ r (hr : r < Ys.length), _ := fun r (hr : r < Ys.length) =>
    localRun_process s compress fits p r hp t α β X (Ys[r])
    hX (hY _ (List.getElem_mem _)).1 (hY _ (List.getElem_mem _)).2.symm
  constructor
  · choose f hf using fun r (hr : r < Ys.length) => (loc r hr).1
    refine ?_
    have hr0 : ∀ r : Fin p, r.1 < Ys.length := fun r => by rw [hl]; exact r.2
    let Ls := List.ofFn (fun r : Fin p => f r.1 (hr0 r))
    have hLs : Ls.length = p := by simp [Ls]
    have hrun : ∀ r (h₁ : r < ((List.range p).map (s.process compress p)).length)
        (h₂ : r < Ls.length) (h₃ : r < Ys.length),
        LocalRun ((List.range p).map (s.process compress p))[r] t α β X Ys[r] Ls[r] := by
      intro r h₁ h₂ h₃
      have e1 : ((List.range p).map (s.process compress p))[r] = s.process compress p r := by simp
      have e2 : Ls[r] = f r h₃ := by simp [Ls]
      rw [e1, e2]; exact hf r h₃
    by_cases h1 : 1 < p
    · have : 0 < Ls.length := by omega
      refine ⟨allReduce Ls Ls[0].rows Ls[0].cols, Ls, by rw [hLs, hlen], by rw [hl, hlen], hrun, ?_⟩
      rw [hlen, if_pos h1]
      exact ⟨Ls[0], List.getElem_mem _, rfl⟩
    · have : p = 1 := by omega
      have h2 : Ls.length = 1 := by omega
      obtain ⟨L, hL⟩ := List.length_eq_one_iff.mp h2
      refine ⟨L, Ls, by rw [hLs, hlen], by rw [hl, hlen], hrun, ?_⟩
      rw [hlen, if_neg h1, hL]
  · rintro Y' ⟨Ls, hL1, hL2, hrun, hfin⟩
    rw [hlen] at hL1 hL2 hfin
    have hloc : ∀ r (hr : r < Ls.length), Ls[r].rows = s.outRows t ∧ Ls[r].cols = X.cols ∧
        ∀ i j I, i < s.outRows t → j < X.cols → (s.outPerm t).o2h[i]? = some I →
        Ls[r].e i j = some ((if r = 0 then β * (Y0.e i j).getD 0 else 0) +
          ((roundRobin r s.tree.leafNodes.length p).map
            (s.contr compress t (s.xhat t α X) I j)).sum) := by
      intro r hr
      have hrp : r < p := by omega
      have hrY : r < Ys.length := by omega
      have h := hrun r (by simp; exact hrp) hr hrY
      have e1 : ((List.range p).map (s.process compress p))[r]'(by simp; exact hrp) =
        s.process compress p r := by simp
      rw [e1] at h
      obtain ⟨a1, a2, a3⟩ := (loc r hrY).2 _ h
      have hc := hY _ (List.getElem_mem hrY)
      refine ⟨a1, by rw [a2]; exact hc.2, ?_⟩
      intro i j I hi hj hI
      rw [a3 i j I hi (by rw [hc.2]; exact hj) hI]
      by_cases hr0 : r = 0
      · subst hr0
        have e2 : Ys[0] = Y0 := by
          rw [List.getElem?_eq_getElem hrY] at h0; exact Option.some.inj h0
        rw [e2] at hc ⊢
        by_cases hb : β = 0
        · simp [hb]
        · have hd := hdef hb i j (by rw [hc.1]; exact hi) (by rw [hc.2]; exact hj)
          obtain ⟨v, hv⟩ := Option.isSome_iff_exists.mp hd
          simp [hb, hv]
      · simp [hr0]
    have key : ∀ i j I, i < s.outRows t → (s.outPerm t).o2h[i]? = some I →
        ((List.range p).map (fun r => (if r = 0 then β * (Y0.e i j).getD 0 else 0) +
          ((roundRobin r s.tree.leafNodes.length p).map
            (s.contr compress t (s.xhat t α X) I j)).sum)).sum =
        β * (Y0.e i j).getD 0 + α * ∑ l ∈ range (s.inRows t), opEntry t M i l * X.e l j := by
      intro i j I hi hI
      rw [list_range_sum_ite p hp, sum_all_processes s compress M rep p hp t α X i j I hi hI]
    by_cases h1 : 1 < p
    · rw [if_pos h1] at hfin
      obtain ⟨L, hLm, rfl⟩ := hfin
      obtain ⟨r, hr, rfl⟩ := List.getElem_of_mem hLm
      refine ⟨(hloc r hr).1, (hloc r hr).2.1, ?_⟩
      intro i j hi hj
      obtain ⟨I, _, hI, _⟩ := (outPermOK s t).fwd i hi
      show Ls.foldl (fun acc Y => acc.bind fun a => (Y.e i j).map (a + ·)) (some 0) = _
      rw [foldl_allReduce Ls i j _ 0 (fun r hr => (hloc r hr).2.2 i j I hi hj hI), hL1,
        key i j I hi hI, zero_add]
    · rw [if_neg h1] at hfin
      subst hfin
      have hp1 : p = 1 := by simpa using hL1.symm
      have h := hloc 0 (by simp)
      simp only [List.getElem_cons_zero] at h
      refine ⟨h.1, h.2.1, ?_⟩
      intro i j hi hj
      obtain ⟨I, _, hI, _⟩ := (outPermOK s t).fwd i hi
      rw [h.2.2 i j I hi hj hI]
      have := key i j I hi hI
      subst hp1
      simp only [List.range_one, List.map_cons, List.map_nil, List.sum_cons, List.sum_nil,
        add_zero] at this
      rw [this]

end Verif.HMat
