import Verif.Spec.Duffy
import Verif.Lemmas.DuffyTriangle
/-
The remappings of the reference triangles, and integrals of pairs of points as sums over the regions.
-/
namespace Verif.Quad
open MeasureTheory Set

theorem unitCube_eq : unitCube = cube := rfl

/-- The reference triangle with corners (0,0), (1,0), (1,1). -/
def hyenaTriangle : Set (ℝ × ℝ) := {p | 0 < p.2 ∧ p.2 < p.1 ∧ p.1 < 1}

/-- An affine map of the triangles that preserves areas. -/
def IsTriMap (φ : ℝ × ℝ → ℝ × ℝ) : Prop :=
  (∃ a0 a1 a2 b0 b1 b2 : ℝ, (∀ p, φ p = (a0 + a1 * p.1 + a2 * p.2, b0 + b1 * p.1 + b2 * p.2)) ∧
    |a1 * b2 - a2 * b1| = 1) ∧ BijOn φ hyenaTriangle refTriangle

theorem isTriMap_of (a0 a1 a2 b0 b1 b2 c0 c1 c2 d0 d1 d2 : ℝ) (hdet : |a1 * b2 - a2 * b1| = 1)
    (h1 : ∀ p ∈ hyenaTriangle, (a0 + a1 * p.1 + a2 * p.2, b0 + b1 * p.1 + b2 * p.2) ∈ refTriangle)
    (h2 : ∀ p ∈ refTriangle, (c0 + c1 * p.1 + c2 * p.2, d0 + d1 * p.1 + d2 * p.2) ∈ hyenaTriangle)
    (h3 : ∀ x y : ℝ, c0 + c1 * (a0 + a1 * x + a2 * y) + c2 * (b0 + b1 * x + b2 * y) = x ∧
      d0 + d1 * (a0 + a1 * x + a2 * y) + d2 * (b0 + b1 * x + b2 * y) = y)
    (h4 : ∀ x y : ℝ, a0 + a1 * (c0 + c1 * x + c2 * y) + a2 * (d0 + d1 * x + d2 * y) = x ∧
      b0 + b1 * (c0 + c1 * x + c2 * y) + b2 * (d0 + d1 * x + d2 * y) = y) :
    IsTriMap fun p => (a0 + a1 * p.1 + a2 * p.2, b0 + b1 * p.1 + b2 * p.2) := by
  refine ⟨⟨a0, a1, a2, b0, b1, b2, fun _ => rfl, hdet⟩, ?_⟩
  refine InvOn.bijOn (f' := fun p => (c0 + c1 * p.1 + c2 * p.2, d0 + d1 * p.1 + d2 * p.2)) ⟨?_, ?_⟩ h1 h2
  · rintro ⟨x, y⟩ _
    exact Prod.ext (h3 x y).1 (h3 x y).2
  · rintro ⟨x, y⟩ _
    exact Prod.ext (h4 x y).1 (h4 x y).2

macro "trimap" : tactic => `(tactic| (
  first
  | (rintro ⟨x, y⟩ ⟨h1, h2, h3⟩
     simp only [refTriangle, hyenaTriangle, mem_setOf_eq] at h1 h2 h3 ⊢
     refine ⟨?_, ?_, ?_⟩ <;> linarith)
  | (intro x y; constructor <;> ring)
  | norm_num))

theorem triMap01 : IsTriMap fun p => (0 + 1 * p.1 + -1 * p.2, 0 + 0 * p.1 + 1 * p.2) :=
  isTriMap_of _ _ _ _ _ _ 0 1 1 0 0 1 (by trimap) (by trimap) (by trimap) (by trimap) (by trimap)
theorem triMap02 : IsTriMap fun p => (0 + 0 * p.1 + 1 * p.2, 0 + 1 * p.1 + -1 * p.2) :=
  isTriMap_of _ _ _ _ _ _ 0 1 1 0 1 0 (by trimap) (by trimap) (by trimap) (by trimap) (by trimap)
theorem triMap10 : IsTriMap fun p => (1 + -1 * p.1 + 0 * p.2, 0 + 0 * p.1 + 1 * p.2) :=
  isTriMap_of _ _ _ _ _ _ 1 (-1) 0 0 0 1 (by trimap) (by trimap) (by trimap) (by trimap) (by trimap)
theorem triMap12 : IsTriMap fun p => (1 + -1 * p.1 + 0 * p.2, 0 + 1 * p.1 + -1 * p.2) :=
  isTriMap_of _ _ _ _ _ _ 1 (-1) 0 1 (-1) (-1) (by trimap) (by trimap) (by trimap) (by trimap) (by trimap)
theorem triMap20 : IsTriMap fun p => (0 + 0 * p.1 + 1 * p.2, 1 + -1 * p.1 + 0 * p.2) :=
  isTriMap_of _ _ _ _ _ _ 1 0 (-1) 0 1 0 (by trimap) (by trimap) (by trimap) (by trimap) (by trimap)
theorem triMap21 : IsTriMap fun p => (0 + 1 * p.1 + -1 * p.2, 1 + -1 * p.1 + 0 * p.2) :=
  isTriMap_of _ _ _ _ _ _ 1 0 (-1) 1 (-1) (-1) (by trimap) (by trimap) (by trimap) (by trimap) (by trimap)

theorem exists_edge (v0 v1 : Nat) (h0 : v0 ≤ 2) (h1 : v1 ≤ 2) (h : v0 ≠ v1) :
    ∃ φ, IsTriMap φ ∧ ∀ p : ℝ × ℝ, remapSharedEdge v0 v1 (toDune p) = some (φ p) := by
  interval_cases v0 <;> interval_cases v1 <;> first | exact absurd rfl h | skip
  · exact ⟨_, triMap01, fun p => by simp [remapSharedEdge, refVertex, toDune]; ring⟩
  · exact ⟨_, triMap02, fun p => by simp [remapSharedEdge, refVertex, toDune]; ring⟩
  · exact ⟨_, triMap10, fun p => by simp [remapSharedEdge, refVertex, toDune]; ring⟩
  · exact ⟨_, triMap12, fun p => by simp [remapSharedEdge, refVertex, toDune]; constructor <;> ring⟩
  · exact ⟨_, triMap20, fun p => by simp [remapSharedEdge, refVertex, toDune]; ring⟩
  · exact ⟨_, triMap21, fun p => by simp [remapSharedEdge, refVertex, toDune]; constructor <;> ring⟩

theorem exists_vertex (v : Nat) (h : v ≤ 2) :
    ∃ φ, IsTriMap φ ∧ ∀ p : ℝ × ℝ, remapSharedVertex v (toDune p) = some (φ p) := by
  interval_cases v
  · exact ⟨_, triMap01, fun p => by simp [remapSharedVertex, toDune]; ring⟩
  · exact ⟨_, triMap10, fun p => by simp [remapSharedVertex, toDune]; ring⟩
  · exact ⟨_, triMap21, fun p => by simp [remapSharedVertex, toDune]; constructor <;> ring⟩

theorem exists_remap (c : Config) (hc : c.Valid) :
    ∃ φ ψ, IsTriMap φ ∧ IsTriMap ψ ∧ (∀ p : ℝ × ℝ, c.remapTest (toDune p) = some (φ p)) ∧
      ∀ p : ℝ × ℝ, c.remapTrial (toDune p) = some (ψ p) := by
  cases c with
  | coincident =>
    have h : ∀ p : ℝ × ℝ, Config.coincident.remapTest (toDune p) =
        some (0 + 1 * p.1 + -1 * p.2, 0 + 0 * p.1 + 1 * p.2) := by
      intro p; simp [Config.remapTest, toDune]; ring
    exact ⟨_, _, triMap01, triMap01, h, h⟩
  | edge t0 t1 s0 s1 =>
    obtain ⟨⟨h1, h2, h3⟩, h4, h5, h6⟩ := hc
    obtain ⟨φ, h7, h8⟩ := exists_edge t0 t1 h1 h2 h3
    obtain ⟨ψ, h9, h10⟩ := exists_edge s0 s1 h4 h5 h6
    exact ⟨φ, ψ, h7, h9, h8, h10⟩
  | vertex t0 s0 =>
    obtain ⟨φ, h7, h8⟩ := exists_vertex t0 hc.1
    obtain ⟨ψ, h9, h10⟩ := exists_vertex s0 hc.2
    exact ⟨φ, ψ, h7, h9, h8, h10⟩

/-- The map of pairs of points. -/
def pairMap (φ ψ : ℝ × ℝ → ℝ × ℝ) (p : P4) : P4 :=
  ![(φ (p 0, p 1)).1, (φ (p 0, p 1)).2, (ψ (p 2, p 3)).1, (ψ (p 2, p 3)).2]

theorem bijOn_pairMap {φ ψ : ℝ × ℝ → ℝ × ℝ} (hφ : IsTriMap φ) (hψ : IsTriMap ψ) :
    BijOn (pairMap φ ψ) hyenaPairs refPairs := by
  have mem : ∀ {p : P4}, p ∈ hyenaPairs ↔ (p 0, p 1) ∈ hyenaTriangle ∧ (p 2, p 3) ∈ hyenaTriangle := by
    intro p; simp only [hyenaPairs, hyenaTriangle, mem_setOf_eq]; tauto
  refine ⟨?_, ?_, ?_⟩
  · intro p hp
    obtain ⟨h1, h2⟩ := mem.mp hp
    exact ⟨by simpa [pairMap] using hφ.2.mapsTo h1, by simpa [pairMap] using hψ.2.mapsTo h2⟩
  · intro p hp q hq e
    obtain ⟨h1, h2⟩ := mem.mp hp
    obtain ⟨h3, h4⟩ := mem.mp hq
    have e0 := congrFun e 0; have e1 := congrFun e 1; have e2 := congrFun e 2; have e3 := congrFun e 3
    simp only [pairMap, Matrix.cons_val] at e0 e1 e2 e3
    have f1 := hφ.2.injOn h1 h3 (Prod.ext e0 e1)
    have f2 := hψ.2.injOn h2 h4 (Prod.ext e2 e3)
    exact P4.ext4 (congrArg Prod.fst f1) (congrArg Prod.snd f1) (congrArg Prod.fst f2) (congrArg Prod.snd f2)
  · intro p hp
    obtain ⟨x, hx, hxe⟩ := hφ.2.surjOn hp.1
    obtain ⟨y, hy, hye⟩ := hψ.2.surjOn hp.2
    refine ⟨![x.1, x.2, y.1, y.2], mem.mpr ⟨hx, hy⟩, ?_⟩
    apply P4.ext4 <;> simp [pairMap, hxe, hye]

theorem measurableSet_hyenaPairs : MeasurableSet hyenaPairs := by
  apply IsOpen.measurableSet
  unfold hyenaPairs
  simp only [setOf_and]
  have c : ∀ i : Fin 4, Continuous fun p : P4 => p i := fun i => continuous_apply i
  exact ((isOpen_lt continuous_const (c 1)).inter ((isOpen_lt (c 1) (c 0)).inter ((isOpen_lt (c 0) continuous_const).inter
    ((isOpen_lt continuous_const (c 3)).inter ((isOpen_lt (c 3) (c 2)).inter (isOpen_lt (c 2) continuous_const))))))

theorem pairMap_deriv {φ ψ : ℝ × ℝ → ℝ × ℝ} (hφ : IsTriMap φ) (hψ : IsTriMap ψ) :
    ∃ A : P4 →L[ℝ] P4, |A.det| = 1 ∧ ∀ p, HasFDerivAt (pairMap φ ψ) A p := by
  obtain ⟨⟨a0, a1, a2, b0, b1, b2, hf, hd⟩, -⟩ := hφ
  obtain ⟨⟨c0, c1, c2, d0, d1, d2, hg, he⟩, -⟩ := hψ
  let M : Matrix (Fin 4) (Fin 4) ℝ := !![a1, a2, 0, 0; b1, b2, 0, 0; 0, 0, c1, c2; 0, 0, d1, d2]
  refine ⟨LinearMap.toContinuousLinearMap (Matrix.toLin' M), ?_, ?_⟩
  · rw [ContinuousLinearMap.det, LinearMap.coe_toContinuousLinearMap, LinearMap.det_toLin']
    have : M.det = (a1 * b2 - a2 * b1) * (c1 * d2 - c2 * d1) := by
      simp [M, Matrix.det_succ_row_zero, Fin.sum_univ_succ, Fin.succAbove]
      ring
    rw [this, abs_mul, hd, he, one_mul]
  · intro p
    have : pairMap φ ψ = fun p => (LinearMap.toContinuousLinearMap (Matrix.toLin' M)) p + ![a0, b0, c0, d0] := by
      funext p
      apply P4.ext4 <;>
        simp [pairMap, hf, hg, M, Matrix.mulVec, dotProduct, Fin.sum_univ_succ] <;> ring
    rw [this]
    exact (LinearMap.toContinuousLinearMap (Matrix.toLin' M)).hasFDerivAt.add_const _

/-- Integrals over pairs of points of the two kinds of reference triangles agree. -/
theorem integral_pairMap {E : Type} [NormedAddCommGroup E] [NormedSpace ℝ E] {φ ψ : ℝ × ℝ → ℝ × ℝ} (hφ : IsTriMap φ)
    (hψ : IsTriMap ψ) (f : P4 → E) :
    (IntegrableOn f refPairs ↔ IntegrableOn (fun p => f (pairMap φ ψ p)) hyenaPairs) ∧
      ∫ p in refPairs, f p = ∫ p in hyenaPairs, f (pairMap φ ψ p) := by
  obtain ⟨A, hA, hd⟩ := pairMap_deriv hφ hψ
  have hb := bijOn_pairMap hφ hψ
  have h1 := integrableOn_image_iff_integrableOn_abs_det_fderiv_smul volume measurableSet_hyenaPairs
    (fun p _ => (hd p).hasFDerivWithinAt) hb.injOn f
  have h2 := integral_image_eq_integral_abs_det_fderiv_smul volume measurableSet_hyenaPairs
    (fun p _ => (hd p).hasFDerivWithinAt) hb.injOn f
  rw [hb.image_eq] at h1 h2
  simp only [hA, one_smul] at h1 h2
  exact ⟨h1, h2⟩


/-! ## The samples as polynomial expressions -/

/-- The samples with the variables as arguments. -/
def Config.exSamples : Config → List (Sample Ex)
  | .coincident => exCO
  | .edge _ _ _ _ => exEA
  | .vertex _ _ => exVA

theorem Config.exSamples_length (c : Config) : c.exSamples.length = c.numRegions := by cases c <;> rfl

/-- The value of a sample. -/
def evalSample (z : P4) (s : Sample Ex) : Sample ℝ := ⟨s.x0.eval z, s.x1.eval z, s.y0.eval z, s.y1.eval z, s.w.eval z⟩

theorem Config.samples_eq (c : Config) (z : P4) :
    c.samples (z 0) (z 1) (z 2) (z 3) = c.exSamples.map (evalSample z) := by
  cases c <;> rfl

/-- The tiling of the pairs of points of the triangle (0,0), (1,0), (1,1). -/
theorem integral_samples {E : Type} [NormedAddCommGroup E] [NormedSpace ℝ E] (c : Config) (f : P4 → E)
    (hf : IntegrableOn f hyenaPairs) :
    ∫ p in hyenaPairs, f p = ∑ r : Fin c.exSamples.length,
      ∫ z in cube, (c.exSamples[r].w.eval z) • f (polyMap (exMap c.exSamples[r]) z) := by
  cases c with
  | coincident => exact (integral_tiling mapsCO _ regionsCO _ det_CO bijOn_CO disjoint_CO sub_CO null_CO f hf).2
  | edge _ _ _ _ => exact (integral_tiling mapsEA _ regionsEA _ det_EA bijOn_EA disjoint_EA sub_EA null_EA f hf).2
  | vertex _ _ => exact (integral_tiling mapsVA _ regionsVA _ det_VA bijOn_VA disjoint_VA sub_VA null_VA f hf).2

theorem integrable_samples {E : Type} [NormedAddCommGroup E] [NormedSpace ℝ E] (c : Config) (f : P4 → E)
    (hf : ∀ r : Fin c.exSamples.length,
      IntegrableOn (fun z => (c.exSamples[r].w.eval z) • f (polyMap (exMap c.exSamples[r]) z)) cube) :
    IntegrableOn f hyenaPairs := by
  cases c with
  | coincident => exact integrable_tiling mapsCO _ regionsCO _ det_CO bijOn_CO sub_CO null_CO f hf
  | edge _ _ _ _ => exact integrable_tiling mapsEA _ regionsEA _ det_EA bijOn_EA sub_EA null_EA f hf
  | vertex _ _ => exact integrable_tiling mapsVA _ regionsVA _ det_VA bijOn_VA sub_VA null_VA f hf

theorem sample_mem (c : Config) (r : Nat) (h : r < c.exSamples.length) (z : P4) (hz : z ∈ cube) :
    polyMap (exMap c.exSamples[r]) z ∈ hyenaPairs ∧ 0 < c.exSamples[r].w.eval z := by
  have hw : ∀ (a b : ℝ), |a| = b → a ≠ 0 → 0 < b := fun a b h ha => h ▸ abs_pos.mpr ha
  constructor
  · cases c with
    | coincident => exact sub_CO ⟨r, h⟩ ((bijOn_CO ⟨r, h⟩).mapsTo hz)
    | edge _ _ _ _ => exact sub_EA ⟨r, h⟩ ((bijOn_EA ⟨r, h⟩).mapsTo hz)
    | vertex _ _ => exact sub_VA ⟨r, h⟩ ((bijOn_VA ⟨r, h⟩).mapsTo hz)
  · obtain ⟨⟨h0, h0'⟩, ⟨h1, h1'⟩, ⟨h2, h2'⟩, h3, h3'⟩ := mem_cube.mp hz
    cases c with
    | coincident =>
      have h : r < 6 := h
      interval_cases r <;>
        (simp only [Config.exSamples, exCO, triangleCoincident, List.getElem_cons_zero, List.getElem_cons_succ,
          Ex.eval_mul, Ex.eval_var]; positivity)
    | edge _ _ _ _ =>
      have h : r < 5 := h
      interval_cases r <;>
        (simp only [Config.exSamples, exEA, triangleEdgeAdjacent, List.getElem_cons_zero, List.getElem_cons_succ,
          Ex.eval_mul, Ex.eval_var]; positivity)
    | vertex _ _ =>
      have h : r < 2 := h
      interval_cases r <;>
        (simp only [Config.exSamples, exVA, triangleVertexAdjacent, List.getElem_cons_zero, List.getElem_cons_succ,
          Ex.eval_mul, Ex.eval_var]; positivity)

end Verif.Quad
