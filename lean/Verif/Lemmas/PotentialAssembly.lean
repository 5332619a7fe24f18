import Verif.Spec.PotentialField
import Verif.Lemmas.PotentialField
import Verif.Props.PotentialOperators
import Verif.Props.Assembly
import Verif.Props.DiscreteOperator
/-
Lemmas for the fields computed by potential operators.
-/
namespace Verif.Pot
open Verif.Grid Verif.Shape Verif.SingleQuad Verif.Space Verif.HMat Verif.LocalOps Verif.GridFun Verif.Kernel Verif.Assembly
open Finset (range)

section
variable {addr : Type} {A : Assembler addr} {k : ℂ} {tri : Triangles} {U : ASpace ℂ} {n : Nat}

theorem Assembler.Setup.at (hs : A.Setup k tri U n) {e : Nat} (he : e < U.elementCount) :
    A.Moderate tri (List.range n) [e] (-1) := by
  intro p hp e' he' m hm
  have : e' = e := by simpa using he'
  subst this
  exact hs.moderate p hp e' (List.mem_range.mpr he) m hm

/-- The entry for point `p`, element `e`, component `c` and function `b`. -/
noncomputable def Assembler.entry (A : Assembler addr) (tri : Triangles) (p e c b : Nat) : ℂ :=
  A.op.contribution (tri e) (rulePoints (A.rule tri p e (-1))) (A.points p) ((A.shapes e).shape b) c

theorem dim_pos (hv : A.Valid k tri) : 0 < A.op.functor.dim := by
  have := hv.op
  simp only [potentialOperators, List.mem_cons, List.not_mem_nil, or_false] at this
  rcases this with h | h | h | h | h | h | h | h | h | h | h | h | h | h <;> rw [h] <;> first | exact Nat.one_pos | exact Nat.succ_pos 2

theorem traversal_exists (hv : A.Valid k tri) (t : Nat) (ps : List Nat) :
    ∃ order, Traversal (fun p d => A.Rule tri p t (-1) d) ps order := by
  refine ⟨(ps.map fun p => A.rule tri p t (-1)).dedup, List.nodup_dedup _, fun v => ?_⟩
  simp only [List.mem_dedup, List.mem_map, rule_iff hv]

theorem interleaving_one {α : Type} (l : List α) : HMatrix.Interleaving [l] l := by
  induction l with
  | nil => exact HMatrix.Interleaving.drop [] [] [] .done
  | cons x l ih => exact HMatrix.Interleaving.step [] [] x l l ih

theorem assemble_exists (hs : A.Setup k tri U n) (order : Nat → List Descriptor) (old : Nat → List (Mx ℂ))
    (ho : ∀ t, Traversal (fun p d => A.Rule tri p t (-1) d) (List.range n) (order t) ∧ (old t).length = n) :
    ∃ out, AssemblePotential A U n order old out := by
  refine ⟨_, fun t => match A.atPoints (List.range n) t none (-1) (order t) (old t) with
    | .ok r => r
    | _ => [], ?_, [List.range U.elementCount], List.range U.elementCount, by simp, interleaving_one _, rfl⟩
  intro t ht _
  dsimp only
  rw [atPoints_eq hs.valid (List.range n) t (hs.elements ▸ ht) none (-1) (order t) (old t) (hs.at ht) (ho t).1 (by simpa using (ho t).2)]

theorem no_dofs {t b j : Nat} (h : ¬ contributes (U.gdofs t) = true) : ¬ U.maps.At ⟨t, b⟩ (j : Int) := by
  intro hb
  apply h
  unfold contributes
  rw [List.any_eq_true]
  exact ⟨(j : Int), List.mem_of_getElem? hb, by simp⟩

theorem assemble_spec (hs : A.Setup k tri U n) (order : Nat → List Descriptor) (old : Nat → List (Mx ℂ))
    (ho : ∀ t, Traversal (fun p d => A.Rule tri p t (-1) d) (List.range n) (order t) ∧ (old t).length = n) (out : Option (Mx ℂ))
    (h : AssemblePotential A U n order old out) : ∃ M, out = some M ∧ M.rows = n * A.op.functor.dim ∧ M.cols = U.globalDofCount ∧
      ∀ p c j : Nat, p < n → c < A.op.functor.dim → j < U.globalDofCount →
        M.e (p * A.op.functor.dim + c) j = potentialEntry U (A.entry tri) p c j := by
  obtain ⟨localResult, h1, h2⟩ := h
  obtain ⟨M, e1, e2, e3, e4⟩ := C45_potential_assembly n _ U hs.space _ out h2
  refine ⟨M, e1, e2, e3, fun p c j hp hc hj => ?_⟩
  rw [e4 p c j hp hc (e3 ▸ hj)]
  unfold potentialEntry
  refine Finset.sum_congr rfl fun t ht => Finset.sum_congr rfl fun b _ => ?_
  have ht := Finset.mem_range.mp ht
  by_cases hcon : contributes (U.gdofs t) = true
  · have h3 := h1 t ht hcon
    rw [atPoints_eq hs.valid (List.range n) t (hs.elements ▸ ht) none (-1) (order t) (old t) (hs.at ht) (ho t).1
      (by simpa using (ho t).2)] at h3
    have h4 := Outcome.ok.inj h3
    dsimp only
    rw [← h4]
    have hg : (List.range n)[p]? = some p := by rw [List.getElem?_range hp]
    simp only [List.getD_eq_getElem?_getD, List.getElem?_map, hg, Option.map_some, Option.getD_some]
    rfl
  · rw [if_neg (no_dofs hcon), if_neg (no_dofs hcon)]

theorem construct_ok (hv : A.Valid k tri) (M : Mx ℂ) (N : Nat) (hr : M.rows = n * A.op.functor.dim) (hc : M.cols = N) :
    constructPotential (some N) (some n) (some (DiscreteOp.denseOp M)) A.op.functor.dim =
      .ok ⟨some N, some n, DiscreteOp.denseOp M, A.op.functor.dim⟩ := by
  have hd := dim_pos hv
  unfold constructPotential
  have e1 : (DiscreteOp.denseOp M).rowCount = n * A.op.functor.dim := hr
  have e2 : (DiscreteOp.denseOp M).columnCount = N := hc
  dsimp only
  rw [if_neg (by omega), if_neg (by rw [Int.toNat_natCast, e1]; simp),
    if_neg (by simp [e1, Nat.mul_comm]), if_neg (by simp [e2]), Int.toNat_natCast]

theorem apply_spec (hv : A.Valid k tri) (M : Mx ℂ) (N : Nat) (hr : M.rows = n * A.op.functor.dim) (hc : M.cols = N) (a : Nat → ℂ) :
    (∃ out, (AssembledPotential.mk (some N) (some n) (DiscreteOp.denseOp M) A.op.functor.dim).ApplyRun ⟨N, a⟩ out) ∧
    ∀ out, (AssembledPotential.mk (some N) (some n) (DiscreteOp.denseOp M) A.op.functor.dim).ApplyRun ⟨N, a⟩ out →
      ∃ Y, out = .ok Y ∧ Y.rows = A.op.functor.dim ∧ Y.cols = n ∧ ∀ c < A.op.functor.dim, ∀ p < n,
        Y.e c p = some (∑ j ∈ range N, M.e (p * A.op.functor.dim + c) j * a j) := by
  have hd := dim_pos hv
  have key := fun g : Nat → Nat → Option ℂ => DiscreteOp.C51_apply_matrix (DiscreteOp.denseOp M) M.e (DiscreteOp.C51_dense M)
    .NO_TRANSPOSE ⟨N, 1, fun i _ => a i⟩ ⟨(DiscreteOp.denseOp M).rowCount, 1, g⟩ 1 0 hc.symm rfl rfl (by simp)
  unfold AssembledPotential.ApplyRun
  simp only [ne_eq, not_true, if_false]
  constructor
  · obtain ⟨out, h⟩ := (key fun _ _ => none).1
    exact ⟨_, fun _ _ => none, out, h, rfl⟩
  · rintro out ⟨g, r, h, rfl⟩
    obtain ⟨Y, rfl, h1, h2, h3⟩ := (key g).2 r h
    have e1 : Y.rows = n * A.op.functor.dim := h1.trans hr
    refine ⟨_, rfl, rfl, ?_, ?_⟩
    · show Y.rows / A.op.functor.dim = n
      rw [e1, Nat.mul_div_cancel _ hd]
    · intro c hc' p hp
      show Y.e ((c + A.op.functor.dim * p) % Y.rows) ((c + A.op.functor.dim * p) / Y.rows) = _
      have hlt : c + A.op.functor.dim * p < Y.rows := by
        rw [e1]
        calc c + A.op.functor.dim * p < A.op.functor.dim + A.op.functor.dim * p := by omega
          _ = A.op.functor.dim * (p + 1) := by ring
          _ ≤ A.op.functor.dim * n := Nat.mul_le_mul_left _ hp
          _ = n * A.op.functor.dim := Nat.mul_comm _ _
      rw [Nat.mod_eq_of_lt hlt, Nat.div_eq_of_lt hlt, h3 _ 0 (by rw [h1] at hlt; exact hlt) Nat.one_pos,
        show c + A.op.functor.dim * p = p * A.op.functor.dim + c by ring]
      simp [DiscreteOp.modeEntry]

theorem entries_sum (F : Nat → Nat → Nat → Nat → ℂ) (a : Nat → ℂ) (p c : Nat) :
    ∑ j ∈ range U.globalDofCount, potentialEntry U F p c j * a j =
      ∑ e ∈ range U.elementCount, ∑ b ∈ range (U.gdofs e).length, localCoefficient U a e b * F p e c b := by
  unfold potentialEntry localCoefficient
  simp only [Finset.sum_mul]
  rw [Finset.sum_comm]
  refine Finset.sum_congr rfl fun e _ => ?_
  rw [Finset.sum_comm]
  refine Finset.sum_congr rfl fun b _ => Finset.sum_congr rfl fun j _ => ?_
  split <;> ring

/-- The value that is computed. -/
noncomputable def Assembler.computed (A : Assembler addr) (tri : Triangles) (U : ASpace ℂ) (a : Nat → ℂ) (p c : Nat) : ℂ :=
  ∑ e ∈ range U.elementCount, ∑ b ∈ range (U.gdofs e).length, localCoefficient U a e b * A.entry tri p e c b

theorem computes_iff (hs : A.Setup k tri U n) (a : Nat → ℂ) (p c : Nat) (z : ℂ) :
    A.Computes tri U n a p c z ↔ p < n ∧ c < A.op.functor.dim ∧ z = A.computed tri U a p c := by
  constructor
  · rintro ⟨order, old, M, assembled, Y, ho, h1, h2, h3, h4, h5, h6⟩
    obtain ⟨M', e1, e2, e3, e4⟩ := assemble_spec hs order old ho _ h1
    cases e1
    rw [construct_ok hs.valid M _ e2 e3] at h2
    cases h2
    obtain ⟨Y', e5, e6, e7, e8⟩ := (apply_spec hs.valid M _ e2 e3 a).2 _ h3
    cases e5
    refine ⟨e7 ▸ h5, e6 ▸ h4, ?_⟩
    rw [e8 c (e6 ▸ h4) p (e7 ▸ h5)] at h6
    rw [← Option.some.inj h6, Assembler.computed, ← entries_sum]
    exact Finset.sum_congr rfl fun j hj => by rw [e4 p c j (e7 ▸ h5) (e6 ▸ h4) (Finset.mem_range.mp hj)]
  · rintro ⟨hp, hc, rfl⟩
    choose order ho using fun t => traversal_exists hs.valid t (List.range n)
    have ho' : ∀ t, Traversal (fun p d => A.Rule tri p t (-1) d) (List.range n) (order t) ∧
        ((fun _ => List.replicate n (Mx.zero 0 0) : Nat → List (Mx ℂ)) t).length = n := fun t => ⟨ho t, by simp⟩
    obtain ⟨out, h1⟩ := assemble_exists hs order (fun _ => List.replicate n (Mx.zero 0 0)) ho'
    obtain ⟨M, rfl, e2, e3, e4⟩ := assemble_spec hs order _ ho' _ h1
    obtain ⟨⟨out, h2⟩, h3⟩ := apply_spec hs.valid M _ e2 e3 a
    obtain ⟨Y, rfl, e6, e7, e8⟩ := h3 _ h2
    refine ⟨order, _, M, _, Y, ho', h1, construct_ok hs.valid M _ e2 e3, h2, e6 ▸ hc, e7 ▸ hp, ?_⟩
    rw [e8 c hc p hp, Assembler.computed, ← entries_sum]
    exact congrArg some (Finset.sum_congr rfl fun j hj => by rw [e4 p c j hp hc (Finset.mem_range.mp hj)])

end

end Verif.Pot
