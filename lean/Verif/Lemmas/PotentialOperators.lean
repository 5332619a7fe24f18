import Verif.Spec.PotentialOperators
import Verif.Lemmas.GridFunctions
import Verif.Props.QuadratureSelector
import Verif.Props.Kernels
/-
Lemmas for the evaluation of potential operators.
-/
namespace Verif.Pot
open Verif.Grid Verif.Shape Verif.SingleQuad Verif.Space Verif.HMat Verif.LocalOps Verif.GridFun Verif.Kernel

/-! ### Batches -/

theorem active_cons {I V : Type} [DecidableEq V] (v w : V) (ws : List V) (i : I) (is : List I) :
    active v (w :: ws) (i :: is) = if w = v then i :: active v ws is else active v ws is := by
  unfold active
  by_cases h : w = v <;> simp [h]

theorem active_length {I M V : Type} [DecidableEq V] (v : V) (vs : List V) (is : List I) (rs : List M) (h : is.length = rs.length) :
    (active v vs is).length = (active v vs rs).length := by
  induction vs generalizing is rs with
  | nil => simp [active]
  | cons w vs ih =>
    cases is with
    | nil => cases rs with
      | nil => simp [active]
      | cons _ _ => simp at h
    | cons i is => cases rs with
      | nil => simp at h
      | cons r rs =>
        rw [active_cons, active_cons]
        have := ih is rs (by simpa using h)
        split <;> simp [this]

theorem mem_active {I V : Type} [DecidableEq V] {v : V} {f : I → V} {is : List I} {i : I} (h : i ∈ active v (is.map f) is) :
    i ∈ is ∧ f i = v := by
  induction is with
  | nil => simp [active] at h
  | cons j is ih =>
    rw [List.map_cons, active_cons] at h
    split at h
    · rename_i hj
      rcases List.mem_cons.mp h with rfl | h
      · exact ⟨by simp, hj⟩
      · exact ⟨by simp [(ih h).1], (ih h).2⟩
    · exact ⟨by simp [(ih h).1], (ih h).2⟩

theorem distribute_map {I V M : Type} [DecidableEq V] (v : V) (g : I → M) (f : I → V) (is : List I) (rs : List M)
    (h : rs.length = is.length) :
    distribute v (is.map f) rs ((active v (is.map f) is).map g) =
      some (List.zipWith (fun i r => if f i = v then g i else r) is rs) := by
  induction is generalizing rs with
  | nil => simp [distribute]
  | cons i is ih =>
    cases rs with
    | nil => simp at h
    | cons r rs =>
      have := ih rs (by simpa using h)
      by_cases hw : f i = v
      · simp only [List.map_cons, active_cons, if_pos hw, distribute, this, List.zipWith_cons_cons, Option.map_some]
      · simp only [List.map_cons, active_cons, if_neg hw, distribute, this, List.zipWith_cons_cons, Option.map_some]

theorem batchLoop_eq {I V M : Type} [DecidableEq V] (integrate : V → List I → List M → Outcome (List M)) (f : I → V) (g : I → M)
    (is : List I) (order : List V)
    (hg : ∀ v ∈ order, ∀ rs : List M, rs.length = (active v (is.map f) is).length →
      integrate v (active v (is.map f) is) rs = .ok ((active v (is.map f) is).map g)) (rs : List M) (h : rs.length = is.length) :
    batchLoop integrate is (is.map f) order rs = .ok (List.zipWith (fun i r => if f i ∈ order then g i else r) is rs) := by
  induction order generalizing rs with
  | nil =>
    simp only [batchLoop, List.not_mem_nil, if_false]
    refine congrArg Outcome.ok ?_
    apply List.ext_getElem
    · simp [h]
    · intro n a b; simp
  | cons v order ih =>
    simp only [batchLoop]
    rw [hg v (by simp) _ (active_length v _ _ _ h)]
    dsimp only
    rw [distribute_map v g f is rs h]
    dsimp only
    rw [ih (fun w hw => hg w (by simp [hw])) _ (by simp [h])]
    refine congrArg Outcome.ok ?_
    apply List.ext_getElem
    · simp [h]
    · intro n a b
      have hn : n < is.length := by rw [List.length_zipWith] at b; omega
      simp only [List.getElem_zipWith, List.mem_cons]
      by_cases ho : f is[n] ∈ order
      · rw [if_pos ho, if_pos (Or.inr ho)]
      · rw [if_neg ho]
        by_cases hv : f is[n] = v
        · rw [if_pos hv, if_pos (Or.inl hv)]
        · rw [if_neg hv, if_neg (by tauto)]

theorem selectVariants_ok {I V : Type} (select : I → Outcome V) (f : I → V) (is : List I) (h : ∀ i ∈ is, select i = .ok (f i)) :
    selectVariants select is = .ok (is.map f) := by
  induction is with
  | nil => rfl
  | cons i is ih =>
    rw [selectVariants, h i (by simp)]
    dsimp only
    rw [ih fun j hj => h j (by simp [hj])]
    rfl

/-- Whatever the order of the variants, every item gets its own result. -/
theorem evaluate_eq {I V M : Type} [DecidableEq V] (select : I → Outcome V) (integrate : V → List I → List M → Outcome (List M))
    (f : I → V) (g : I → M) (is : List I) (order : List V) (old : List M) (hs : ∀ i ∈ is, select i = .ok (f i))
    (ho : ∀ v, v ∈ order ↔ ∃ i ∈ is, f i = v)
    (hg : ∀ i ∈ is, ∀ l : List I, (∀ j ∈ l, j ∈ is ∧ f j = f i) → ∀ rs : List M, rs.length = l.length →
      integrate (f i) l rs = .ok (l.map g))
    (hold : old.length = is.length) : evaluate select integrate is order old = .ok (is.map g) := by
  unfold evaluate
  rw [selectVariants_ok select f is hs]
  dsimp only
  rw [batchLoop_eq integrate f g is order (by
    intro v hv rs hrs
    obtain ⟨i, hi, rfl⟩ := (ho v).mp hv
    exact hg i hi _ (fun j hj => mem_active hj) rs hrs) old hold]
  refine congrArg Outcome.ok ?_
  apply List.ext_getElem
  · simp [hold]
  · intro n a b
    simp only [List.getElem_zipWith, List.getElem_map]
    rw [if_pos ((ho _).mpr ⟨_, List.getElem_mem _, rfl⟩)]

/-! ### One integral -/

theorem integrand_eq {k : ℂ} {op : PotentialOperator} (hop : op ∈ potentialOperators k) (mesh : FMesh) (T : P3 ℝ × P3 ℝ × P3 ℝ)
    (e : Nat) (p : ℝ × ℝ) (old : Data) (hT : IsTriangle mesh.toMesh e T.1 T.2.1 T.2.2)
    (hp : mesh.local2global e p = refMap T.1 T.2.1 T.2.2 p) (x u : P3 ℝ) (b : BasisAt) (c : Nat) :
    let d := mesh.fill e p op.trialGeomDeps old
    op.functor.evaluate d (kernelValues op.kernels ⟨x, u⟩ ⟨d.global, d.geom.normal⟩) (transformed op.transformations b d.geom) c =
      op.integrand T x b p c ∧
    d.geom.integrationElement = (fullData T.1 T.2.1 T.2.2).integrationElement := by
  obtain ⟨A, B, C⟩ := T
  obtain ⟨-, hd, hA⟩ := hT
  dsimp only at hd hA hp ⊢
  unfold PotentialOperator.integrand FMesh.fill
  dsimp only
  rw [unitNormal_eq A B C hA, hd, hp]
  simp only [potentialOperators, List.mem_cons, List.not_mem_nil, or_false] at hop
  rcases hop with rfl | rfl | rfl | rfl | rfl | rfl | rfl | rfl | rfl | rfl | rfl | rfl | rfl | rfl <;>
    exact ⟨rfl, rfl⟩

theorem integral_eq {k : ℂ} {op : PotentialOperator} (hop : op ∈ potentialOperators k) (mesh : FMesh) (T : P3 ℝ × P3 ℝ × P3 ℝ)
    (e : Nat) (hT : IsTriangle mesh.toMesh e T.1 T.2.1 T.2.2) (hp : ∀ p, mesh.local2global e p = refMap T.1 T.2.1 T.2.2 p)
    (points : List QPoint) (shape : ℝ × ℝ → BasisAt) (old : Nat → Data) (x u : P3 ℝ) (c : Nat) :
    op.integral points shape (op.fill mesh points e old) ⟨x, u⟩ c = op.contribution T points x shape c := by
  unfold PotentialOperator.integral PotentialOperator.contribution
  rw [foldl_sumC, zero_add, ← List.sum_map_mul_left]
  refine congrArg List.sum ?_
  apply List.ext_getElem
  · simp
  · intro n a b
    have hn : n < points.length := by simpa using b
    have hfill : op.fill mesh points e old n = mesh.fill e (points[n].x, points[n].y) op.trialGeomDeps (old n) := by
      unfold PotentialOperator.fill
      rw [List.getElem?_eq_getElem hn]
    obtain ⟨h1, h2⟩ := integrand_eq hop mesh T e (points[n].x, points[n].y) (old n) hT (hp _) x u (shape (points[n].x, points[n].y)) c
    simp only [List.getElem_map, List.getElem_zipIdx, zero_add, hfill]
    rw [h1, h2, ie_eq]
    ring

theorem elementLoop_eq {k : ℂ} {op : PotentialOperator} (hop : op ∈ potentialOperators k) (mesh : FMesh) (tri : Triangles)
    (points : List QPoint) (s : Shapeset) (x u : P3 ℝ) (comp : Option Nat) (es : List Nat)
    (hT : ∀ e ∈ es, IsTriangle mesh.toMesh e (tri e).1 (tri e).2.1 (tri e).2.2)
    (hp : ∀ e ∈ es, ∀ p, mesh.local2global e p = refMap (tri e).1 (tri e).2.1 (tri e).2.2 p) (old : Nat → Data) :
    op.elementLoop mesh ⟨x, u⟩ points s comp es old = es.map fun e =>
      match comp with
      | none => ⟨op.functor.dim, s.size, fun c j => op.contribution (tri e) points x (s.shape j) c⟩
      | some c => ⟨1, s.size, fun _ j => op.contribution (tri e) points x (s.shape j) c⟩ := by
  induction es generalizing old with
  | nil => rfl
  | cons e es ih =>
    have := ih (fun e' he' => hT e' (by simp [he'])) (fun e' he' => hp e' (by simp [he'])) (op.fill mesh points e old)
    cases comp with
    | none =>
      rw [List.map_cons, ← this]
      simp only [PotentialOperator.elementLoop, integral_eq hop mesh (tri e) e (hT e (by simp)) (hp e (by simp))]
    | some c =>
      rw [List.map_cons, ← this]
      simp only [PotentialOperator.elementLoop, integral_eq hop mesh (tri e) e (hT e (by simp)) (hp e (by simp))]

theorem pairLoop_eq {k : ℂ} {op : PotentialOperator} (hop : op ∈ potentialOperators k) (mesh : FMesh) (tri : Triangles)
    (points : List QPoint) (s : Shapeset) (xs : Nat → P3 ℝ) (u : P3 ℝ) (ps : List (Nat × Nat))
    (hT : ∀ p ∈ ps, IsTriangle mesh.toMesh p.2 (tri p.2).1 (tri p.2).2.1 (tri p.2).2.2)
    (hp : ∀ q ∈ ps, ∀ p, mesh.local2global q.2 p = refMap (tri q.2).1 (tri q.2).2.1 (tri q.2).2.2 p) (old : Nat → Data) :
    op.pairLoop mesh xs u points s ps old = ps.map fun p =>
      ⟨op.functor.dim, s.size, fun c j => op.contribution (tri p.2) points (xs p.1) (s.shape j) c⟩ := by
  induction ps generalizing old with
  | nil => rfl
  | cons e es ih =>
    rw [PotentialOperator.pairLoop, List.map_cons]
    rw [ih (fun e' he' => hT e' (by simp [he'])) (fun e' he' => hp e' (by simp [he']))]
    simp only [integral_eq hop mesh (tri e.2) e.2 (hT e (by simp)) (hp e (by simp))]

/-! ### The rule -/

theorem dist_eq (a b : P3 ℝ) : Kernel.dist a b = √(Verif.Quad.distSq (toPoint a) (toPoint b)) := by
  unfold Kernel.dist Verif.Quad.distSq toPoint
  simp [Fin.sum_univ_three]

theorem sizeSq_eq {g : Verif.Quad.RawGeometry} {e : Nat} {T : P3 ℝ × P3 ℝ × P3 ℝ}
    (h : ∃ a b c, g.corners e = [a, b, c] ∧ g.vertex a = toPoint T.1 ∧ g.vertex b = toPoint T.2.1 ∧ g.vertex c = toPoint T.2.2) :
    √(g.sizeSq e) = longestSide T := by
  obtain ⟨a, b, c, h0, h1, h2, h3⟩ := h
  have c0 : g.corner e 0 = toPoint T.1 := by unfold Verif.Quad.RawGeometry.corner; rw [h0]; exact h1
  have c1 : g.corner e 1 = toPoint T.2.1 := by unfold Verif.Quad.RawGeometry.corner; rw [h0]; exact h2
  have c2 : g.corner e 2 = toPoint T.2.2 := by unfold Verif.Quad.RawGeometry.corner; rw [h0]; exact h3
  have n1 := Verif.Quad.distSq_nonneg (g.corner e 1) (g.corner e 0)
  have key : g.sizeSq e = max (max (Verif.Quad.distSq (g.corner e 1) (g.corner e 0)) (Verif.Quad.distSq (g.corner e 2) (g.corner e 1)))
      (Verif.Quad.distSq (g.corner e 0) (g.corner e 2)) := by
    unfold Verif.Quad.RawGeometry.sizeSq
    rw [if_pos (by rw [h0]; rfl)]
    simp only [List.range_succ, List.range_zero, List.nil_append, List.cons_append, List.foldl_cons, List.foldl_nil]
    norm_num
    rw [max_eq_right n1]
  rw [key, c0, c1, c2]
  unfold longestSide
  rw [dist_eq, dist_eq, dist_eq]
  rw [Real.sqrt_monotone.map_max, Real.sqrt_monotone.map_max]

theorem center_eq {g : Verif.Quad.RawGeometry} {e : Nat} {T : P3 ℝ × P3 ℝ × P3 ℝ}
    (h : ∃ a b c, g.corners e = [a, b, c] ∧ g.vertex a = toPoint T.1 ∧ g.vertex b = toPoint T.2.1 ∧ g.vertex c = toPoint T.2.2) :
    g.center e = toPoint (centroid3 T) := by
  obtain ⟨a, b, c, h0, h1, h2, h3⟩ := h
  funext d
  unfold Verif.Quad.RawGeometry.center
  rw [h0]
  simp only [List.map_cons, List.map_nil, h1, h2, h3, List.sum_cons, List.sum_nil, List.length_cons, List.length_nil]
  unfold toPoint centroid3
  fin_cases d <;> (simp; ring)

end Verif.Pot
