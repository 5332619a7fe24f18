import Verif.Lemmas.PotentialAssembly
/-
The computed values as sums over the nodes of quadrature.
-/
namespace Verif.Pot
open Verif.Grid Verif.Shape Verif.SingleQuad Verif.Space Verif.HMat Verif.LocalOps Verif.GridFun Verif.Kernel Verif.Assembly
open Finset (range)

section
variable {addr : Type} {A : Assembler addr} {k : ℂ} {tri : Triangles} {U : ASpace ℂ} {n : Nat}

theorem functor_linear {op : PotentialOperator} (hop : op ∈ potentialOperators k) (d : Data) (K : Nat → Nat → ℂ) (s : Finset Nat)
    (co : Nat → ℂ) (T : Nat → Nat → Nat → ℂ) (c : Nat) :
    op.functor.evaluate d K (fun i e => ∑ b ∈ s, co b * T b i e) c = ∑ b ∈ s, co b * op.functor.evaluate d K (T b) c := by
  have h1 : ∀ (t : Nat → ℂ) (a : ℂ), (∑ b ∈ s, co b * t b) * a = ∑ b ∈ s, co b * (t b * a) := by
    intro t a; rw [Finset.sum_mul]; exact Finset.sum_congr rfl fun b _ => by ring
  have h2 : ∀ (t : Nat → ℂ) (a : ℂ), a * (∑ b ∈ s, co b * t b) = ∑ b ∈ s, co b * (a * t b) := by
    intro t a; rw [Finset.mul_sum]; exact Finset.sum_congr rfl fun b _ => by ring
  have hs : simpleScalar.evaluate d K (fun i e => ∑ b ∈ s, co b * T b i e) c = ∑ b ∈ s, co b * simpleScalar.evaluate d K (T b) c := h1 _ _
  have hv : simpleVectorial.evaluate d K (fun i e => ∑ b ∈ s, co b * T b i e) c =
      ∑ b ∈ s, co b * simpleVectorial.evaluate d K (T b) c := by
    unfold simpleVectorial
    dsimp only
    split
    · exact h1 _ _
    · split <;> exact h1 _ _
  have hd : maxwellDoubleFunctor.evaluate d K (fun i e => ∑ b ∈ s, co b * T b i e) c =
      ∑ b ∈ s, co b * maxwellDoubleFunctor.evaluate d K (T b) c := by
    unfold maxwellDoubleFunctor
    dsimp only
    split
    · simp only [h2, mul_sub, Finset.sum_sub_distrib]
    · split <;> simp only [h2, mul_sub, Finset.sum_sub_distrib]
  have hm : maxwellSingleFunctor.evaluate d K (fun i e => ∑ b ∈ s, co b * T b i e) c =
      ∑ b ∈ s, co b * maxwellSingleFunctor.evaluate d K (T b) c := by
    unfold maxwellSingleFunctor
    simp only [h2, mul_add, Finset.sum_add_distrib]
  simp only [potentialOperators, List.mem_cons, List.not_mem_nil, or_false] at hop
  rcases hop with rfl | rfl | rfl | rfl | rfl | rfl | rfl | rfl | rfl | rfl | rfl | rfl | rfl | rfl
  exacts [hs, hs, hv, hv, hs, hs, hs, hs, hs, hs, hm, hd, hm, hd]

/-- The value of transformation `i` of the function at a node. -/
noncomputable def trialAtNode (op : PotentialOperator) (U : ASpace ℂ) (shapes : Nat → Shapeset) (tri : Triangles) (a : Nat → ℂ) (ν : Node)
    (i d : Nat) : ℂ :=
  ∑ b ∈ range (U.gdofs ν.element).length, localCoefficient U a ν.element b *
    transformed op.transformations ((shapes ν.element).shape b ν.reference)
      (fullData (tri ν.element).1 (tri ν.element).2.1 (tri ν.element).2.2) i d

/-- The integrand at a node. -/
noncomputable def atNode (op : PotentialOperator) (U : ASpace ℂ) (shapes : Nat → Shapeset) (tri : Triangles) (a : Nat → ℂ) (x : P3 ℝ)
    (c : Nat) (ν : Node) : ℂ :=
  op.functor.evaluate ⟨fullData (tri ν.element).1 (tri ν.element).2.1 (tri ν.element).2.2, ν.position, 0⟩
    (kernelValues op.kernels ⟨x, ⟨0, 0, 0⟩⟩ ⟨ν.position, ν.normal⟩) (trialAtNode op U shapes tri a ν) c

theorem sum_flatMap_map {α β : Type} (l : List α) (g : α → List β) (f : β → ℂ) :
    ((l.flatMap g).map f).sum = (l.map fun x => ((g x).map f).sum).sum := by
  induction l with
  | nil => simp
  | cons x l ih => simp [List.flatMap_cons, ih]

theorem list_sum_comm {α : Type} (l : List α) (s : Finset Nat) (f : Nat → α → ℂ) :
    ∑ b ∈ s, (l.map (f b)).sum = (l.map fun x => ∑ b ∈ s, f b x).sum := by
  induction l with
  | nil => simp
  | cons x l ih => simp [Finset.sum_add_distrib, ih]

theorem computed_nodes (hv : A.Valid k tri) (a : Nat → ℂ) (p c : Nat) (nodes : List Node) (hn : A.Nodes tri U p nodes) :
    A.computed tri U a p c = nodeSum nodes (atNode A.op U A.shapes tri a (A.points p) c) := by
  obtain ⟨d, hd, rfl⟩ := hn
  unfold nodeSum surfaceNodes Assembler.computed
  rw [sum_flatMap_map, sum_list_range]
  refine Finset.sum_congr rfl fun e he => ?_
  have hr : A.rule tri p e (-1) = d e := (rule_iff hv p e (-1) (d e)).mp (hd e (Finset.mem_range.mp he))
  unfold Assembler.entry PotentialOperator.contribution
  rw [hr]
  simp only [← List.sum_map_mul_left]
  rw [list_sum_comm]
  rw [List.map_map]
  refine congrArg List.sum (List.map_congr_left fun q _ => ?_)
  simp only [Function.comp]
  unfold atNode trialAtNode
  dsimp only
  rw [functor_linear hv.op, Finset.mul_sum]
  refine Finset.sum_congr rfl fun b _ => ?_
  unfold PotentialOperator.integrand
  push_cast
  ring

theorem nodeSum_congr {nodes : List Node} {f g : Node → ℂ} (h : ∀ ν ∈ nodes, f ν = g ν) : nodeSum nodes f = nodeSum nodes g := by
  unfold nodeSum
  exact congrArg List.sum (List.map_congr_left fun ν hν => by rw [h ν hν])

end

end Verif.Pot
