import Verif.Lemmas.BoundaryOperators
/-
The entries of the local matrices of boundary integral operators.
-/
namespace Verif.Bio
open Verif.Grid Verif.Space Verif.Shape Verif.SingleQuad Verif.HMat Verif.LocalOps Verif.GridFun Verif.Kernel Verif.Pot Verif.Integral Verif.Integrator
open Finset

/-- The integrand for the data of a test and a trial point and the values of a test and a trial function there. -/
noncomputable def BoundaryOperator.integrand (op : BoundaryOperator) (d d' : Data) (b b' : BasisAt) : ℂ :=
  match op.integral with
  | .default f => f.evaluate d d' (transformed op.testTransformations b d.geom) (transformed op.trialTransformations b' d'.geom)
      (kernelValues op.kernels (sliceOf d) (sliceOf d'))
  | .typical => ∑ t ∈ range op.testTransformations.length,
      kernelValues op.kernels (sliceOf d) (sliceOf d') (kernelFor op.kernels.kernelCount t) 0 *
        ∑ c ∈ range ((op.testTransformations.map Transformation.dim).getD t 0),
          star (transformed op.testTransformations b d.geom t c) * transformed op.trialTransformations b' d'.geom t c

theorem zipIdx_sum {α : Type} (l : List α) (z : α) (f : α → Nat → ℂ) :
    l.zipIdx.foldl (fun s w => s + f w.1 w.2) 0 = ∑ i ∈ range l.length, f (l.getD i z) i := by
  rw [foldl_sumC, zero_add]
  induction l using List.reverseRecOn with
  | nil => rfl
  | append_singleton l x ih =>
    rw [List.zipIdx_append, List.map_append, List.sum_append, ih, List.length_append, List.length_singleton, Finset.sum_range_succ]
    congr 1
    · refine Finset.sum_congr rfl fun i hi => ?_
      have hi := Finset.mem_range.mp hi
      congr 1
      simp [List.getD, List.getElem?_append_left hi]
    · simp [List.getD]

theorem valueAt_transform {ts : List Transformation} {i : Nat} {t : Transformation} (h : ts[i]? = some t) (P : Nat) (b : Basis)
    (g : Integrator.GeomData Values) (dof p c : Nat) (hc : c < t.dim) (hd : dof < b.count) :
    valueAt (transform ts P b g) dof p i c = transformed ts (b.at_ dof p) (dataAt g p).geom i c := by
  unfold valueAt transformed transform
  rw [List.getElem?_map, h]
  simp only [Option.map_some, Option.getD_some]
  rw [tab3_get _ _ _ _ _ _ _ hc hd]
  simp [List.getD, h]

theorem kernelsOnGrid_get (F : Kernel.Functor) (P Q : Nat) (g g' : Integrator.GeomData Values) (i r p q : Nat) (hi : i < F.kernelCount)
    (hr : r < F.kernelRowCount i) (hp : p < P) :
    (((kernelsOnGrid F P Q g g')[i]?).map fun a => a.get r 0 p q).getD 0 =
      kernelValues F (sliceOf (dataAt g p)) (sliceOf (dataAt g' q)) i r := by
  unfold kernelsOnGrid
  rw [List.getElem?_map, List.getElem?_range hi]
  simp only [Option.map_some, Option.getD_some]
  rw [tab4_get _ _ _ _ _ _ _ _ _ hr (by omega) hp]

theorem kernelsAtPairs_get (F : Kernel.Functor) (P : Nat) (g g' : Integrator.GeomData Values) (i r p : Nat) (hi : i < F.kernelCount)
    (hr : r < F.kernelRowCount i) :
    (((kernelsAtPairs F P g g')[i]?).map fun a => a.get r 0 p).getD 0 =
      kernelValues F (sliceOf (dataAt g p)) (sliceOf (dataAt g' p)) i r := by
  unfold kernelsAtPairs
  rw [List.getElem?_map, List.getElem?_range hi]
  simp only [Option.map_some, Option.getD_some]
  rw [tab3_get _ _ _ _ _ _ _ hr (by omega)]

theorem agree_refl (deps : Deps) (d : Data) : AgreeOn deps d d :=
  ⟨fun _ => rfl, fun _ => rfl, fun _ => rfl, fun _ => ⟨rfl, rfl⟩, fun _ => ⟨rfl, rfl⟩, fun _ => rfl⟩

variable {op : BoundaryOperator}

theorem defaultOnGrid_eq (hs : op.Sound) {f : IntegrandFunctor} (hf : op.integral = .default f) (W W' : List ℝ)
    (g g' : Integrator.GeomData Values) (b b' : Basis) (i j : Nat) (hi : i < b.count) (hj : j < b'.count) :
    defaultOnGrid f W W' g g' (transform op.testTransformations W.length b g) (transform op.trialTransformations W'.length b' g')
      (kernelsOnGrid op.kernels W.length W'.length g g') i j =
    ∑ p ∈ range W.length, ∑ q ∈ range W'.length, ((W.getD p 0 * W'.getD q 0 : ℝ) : ℂ) *
      (((dataAt g p).geom.integrationElement * (dataAt g' q).geom.integrationElement : ℝ) : ℂ) *
      op.integrand (dataAt g p) (dataAt g' q) (b.at_ i p) (b'.at_ j q) := by
  unfold defaultOnGrid
  dsimp only
  rw [zipIdx_sum W' 0 (fun w q => W.zipIdx.foldl (fun s v => s + f.evaluate (dataAt g v.2) (dataAt g' q)
    (valueAt (transform op.testTransformations W.length b g) i v.2) (valueAt (transform op.trialTransformations W'.length b' g') j q)
    (fun i r => (((kernelsOnGrid op.kernels W.length W'.length g g')[i]?).map fun a => a.get r 0 v.2 q).getD 0) *
    (((dataAt g v.2).geom.integrationElement * v.1 : ℝ) : ℂ)) 0 * (((dataAt g' q).geom.integrationElement * w : ℝ) : ℂ)), Finset.sum_comm]
  refine Finset.sum_congr rfl fun q hq => ?_
  rw [zipIdx_sum W 0 (fun w p => f.evaluate (dataAt g p) (dataAt g' q)
    (valueAt (transform op.testTransformations W.length b g) i p) (valueAt (transform op.trialTransformations W'.length b' g') j q)
    (fun i r => (((kernelsOnGrid op.kernels W.length W'.length g g')[i]?).map fun a => a.get r 0 p q).getD 0) *
    (((dataAt g p).geom.integrationElement * w : ℝ) : ℂ)), Finset.sum_mul]
  refine Finset.sum_congr rfl fun p hp => ?_
  rw [hs.functor f hf (dataAt g p) (dataAt g p) (dataAt g' q) (dataAt g' q) _ (transformed op.testTransformations (b.at_ i p) (dataAt g p).geom)
    _ (transformed op.trialTransformations (b'.at_ j q) (dataAt g' q).geom) _
    (kernelValues op.kernels (sliceOf (dataAt g p)) (sliceOf (dataAt g' q))) (agree_refl _ _) (agree_refl _ _)
    (fun i t ht c hc => valueAt_transform ht _ _ _ _ _ _ hc hi) (fun i t ht c hc => valueAt_transform ht _ _ _ _ _ _ hc hj)
    (fun i hi r hr => kernelsOnGrid_get _ _ _ _ _ _ _ _ _ hi hr (Finset.mem_range.mp hp))]
  unfold BoundaryOperator.integrand
  rw [hf]
  dsimp only
  push_cast
  ring

theorem defaultAtPairs_eq (hs : op.Sound) {f : IntegrandFunctor} (hf : op.integral = .default f) (W : List ℝ) (P P' : Nat)
    (g g' : Integrator.GeomData Values) (b b' : Basis) (i j : Nat) (hi : i < b.count) (hj : j < b'.count) :
    defaultAtPairs f W g g' (transform op.testTransformations P b g) (transform op.trialTransformations P' b' g')
      (kernelsAtPairs op.kernels W.length g g') i j =
    ∑ p ∈ range W.length, ((W.getD p 0 : ℝ) : ℂ) *
      (((dataAt g p).geom.integrationElement * (dataAt g' p).geom.integrationElement : ℝ) : ℂ) *
      op.integrand (dataAt g p) (dataAt g' p) (b.at_ i p) (b'.at_ j p) := by
  unfold defaultAtPairs
  rw [zipIdx_sum W 0 (fun w p => f.evaluate (dataAt g p) (dataAt g' p)
    (valueAt (transform op.testTransformations P b g) i p) (valueAt (transform op.trialTransformations P' b' g') j p)
    (fun i r => (((kernelsAtPairs op.kernels W.length g g')[i]?).map fun a => a.get r 0 p).getD 0) *
    (((dataAt g p).geom.integrationElement * (dataAt g' p).geom.integrationElement * w : ℝ) : ℂ))]
  refine Finset.sum_congr rfl fun p hp => ?_
  rw [hs.functor f hf (dataAt g p) (dataAt g p) (dataAt g' p) (dataAt g' p) _ (transformed op.testTransformations (b.at_ i p) (dataAt g p).geom)
    _ (transformed op.trialTransformations (b'.at_ j p) (dataAt g' p).geom) _
    (kernelValues op.kernels (sliceOf (dataAt g p)) (sliceOf (dataAt g' p))) (agree_refl _ _) (agree_refl _ _)
    (fun i t ht c hc => valueAt_transform ht _ _ _ _ _ _ hc hi) (fun i t ht c hc => valueAt_transform ht _ _ _ _ _ _ hc hj)
    (fun i hi r hr => kernelsAtPairs_get _ _ _ _ _ _ _ hi hr)]
  unfold BoundaryOperator.integrand
  rw [hf]
  dsimp only
  push_cast
  ring

/-! ### The BLAS versions -/

theorem compatible (op : BoundaryOperator) (hs : op.Sound) (ht : op.integral = .typical) (P Q : Nat) (g g' : Integrator.GeomData Values)
    (b b' : Basis) :
    Compatible op.testTransformations.length b.count b'.count P Q (fun t => (op.testTransformations.map Transformation.dim).getD t 0)
      (transform op.testTransformations P b g) (transform op.trialTransformations Q b' g') := by
  obtain ⟨h0, h1, -, -⟩ := hs.typical ht
  refine ⟨h0, by simp [transform], by simp [transform, h1], ?_, ?_⟩
  · intro t a ha
    unfold transform at ha
    rw [List.getElem?_map] at ha
    obtain ⟨x, hx, rfl⟩ := Option.map_eq_some_iff.mp ha
    exact ⟨by simp [tab3, List.getD, hx], rfl, rfl⟩
  · intro t a ha
    unfold transform at ha
    rw [List.getElem?_map, ← h1] at ha
    obtain ⟨x, hx, rfl⟩ := Option.map_eq_some_iff.mp ha
    exact ⟨by simp [tab3, List.getD, hx], rfl, rfl⟩

theorem compatible_complex {T m n P Q : Nat} {dim : Nat → Nat} {test trial : List (Array3 ℝ)} (h : Compatible T m n P Q dim test trial) :
    Compatible T m n P Q dim (test.map toComplex) (trial.map toComplex) := by
  refine ⟨h.pos, by rw [List.length_map, h.testLength], by rw [List.length_map, h.trialLength], ?_, ?_⟩
  · intro t a ha
    rw [List.getElem?_map] at ha
    obtain ⟨x, hx, rfl⟩ := Option.map_eq_some_iff.mp ha
    exact h.testExt t x hx
  · intro t a ha
    rw [List.getElem?_map] at ha
    obtain ⟨x, hx, rfl⟩ := Option.map_eq_some_iff.mp ha
    exact h.trialExt t x hx

theorem value_toComplex {ts : List Transformation} {t : Nat} (ht : t < ts.length) (P : Nat) (b : Basis)
    (g : Integrator.GeomData Values) (dof p c : Nat) (hc : c < (ts.map Transformation.dim).getD t 0) (hd : dof < b.count) :
    Integral.value ((transform ts P b g).map toComplex) t c dof p = transformed ts (b.at_ dof p) (dataAt g p).geom t c := by
  have h : ts[t]? = some ts[t] := List.getElem?_eq_getElem ht
  have hc' : c < ts[t].dim := by simpa [List.getD, h] using hc
  rw [← valueAt_transform h P b g dof p c hc' hd]
  unfold Integral.value valueAt transform
  rw [List.getElem?_map, List.getElem?_map, h]
  simp only [Option.map_some, Option.getD_some]
  rfl

theorem dot_eq (hs : op.Sound) (ht : op.integral = .typical) (P Q : Nat) (g g' : Integrator.GeomData Values) (b b' : Basis) {t : Nat}
    (htl : t < op.testTransformations.length) (i p j q : Nat) (hi : i < b.count) (hj : j < b'.count) :
    dot (fun t => (op.testTransformations.map Transformation.dim).getD t 0) ((transform op.testTransformations P b g).map toComplex)
      ((transform op.trialTransformations Q b' g').map toComplex) t i p j q =
    ∑ c ∈ range ((op.testTransformations.map Transformation.dim).getD t 0),
      star (transformed op.testTransformations (b.at_ i p) (dataAt g p).geom t c) *
        transformed op.trialTransformations (b'.at_ j q) (dataAt g' q).geom t c := by
  obtain ⟨-, h1, -, -⟩ := hs.typical ht
  unfold dot
  refine Finset.sum_congr rfl fun c hc => ?_
  have hc := Finset.mem_range.mp hc
  rw [value_toComplex htl _ _ _ _ _ _ hc hi, ← h1, value_toComplex htl _ _ _ _ _ _ hc hj]

theorem kernelFor_lt (hs : op.Sound) (ht : op.integral = .typical) {t : Nat} (htl : t < op.testTransformations.length) :
    kernelFor op.kernels.kernelCount t < op.kernels.kernelCount := by
  obtain ⟨h0, -, h2, -⟩ := hs.typical ht
  unfold kernelFor
  split <;> omega

theorem ofReal_star (r : ℝ) : star (r : ℂ) = (r : ℂ) := Complex.conj_ofReal r

theorem typicalOnGrid_eq (hs : op.Sound) (ht : op.integral = .typical) (mem : Memory) (W W' : List ℝ)
    (g g' : Integrator.GeomData Values) (b b' : Basis) (i j : Nat) (hi : i < b.count) (hj : j < b'.count) :
    typicalOnGrid mem W W' g g' (transform op.testTransformations W.length b g) (transform op.trialTransformations W'.length b' g')
      (kernelsOnGrid op.kernels W.length W'.length g g') i j =
    ∑ p ∈ range W.length, ∑ q ∈ range W'.length, ((W.getD p 0 * W'.getD q 0 : ℝ) : ℂ) *
      (((dataAt g p).geom.integrationElement * (dataAt g' q).geom.integrationElement : ℝ) : ℂ) *
      op.integrand (dataAt g p) (dataAt g' q) (b.at_ i p) (b'.at_ j q) := by
  obtain ⟨h0, h1, h2, h3⟩ := hs.typical ht
  obtain ⟨r, hr, hv⟩ := C66_tensor (testJ := elementsC g) (trialJ := elementsC g') (testW := fun p => ((W.getD p 0 : ℝ) : ℂ))
    (trialW := fun p => ((W'.getD p 0 : ℝ) : ℂ)) (kernels := kernelsOnGrid op.kernels W.length W'.length g g')
    (compatible_complex (compatible op hs ht W.length W'.length g g' b b'))
    (by simpa [kernelsOnGrid] using h2) (by
      intro t a ha
      unfold kernelsOnGrid at ha
      rw [List.getElem?_map] at ha
      obtain ⟨x, hx, rfl⟩ := Option.map_eq_some_iff.mp ha
      exact ⟨h3 _, rfl, rfl, rfl⟩) (fun p => ofReal_star _) (fun p => ofReal_star _) mem.loop
  unfold typicalOnGrid
  rw [hr, Option.getD_some, hv i j hi hj]
  unfold gridSum BoundaryOperator.integrand
  rw [ht, Finset.sum_comm]
  refine Finset.sum_congr rfl fun p hp => ?_
  rw [Finset.sum_comm]
  refine Finset.sum_congr rfl fun q hq => ?_
  rw [Finset.mul_sum]
  refine Finset.sum_congr rfl fun t htl => ?_
  have htl := Finset.mem_range.mp htl
  rw [dot_eq hs ht _ _ _ _ _ _ htl _ _ _ _ hi hj]
  have hl : (kernelsOnGrid op.kernels W.length W'.length g g').length = op.kernels.kernelCount := by simp [kernelsOnGrid]
  unfold kernelAt2
  rw [hl, kernelsOnGrid_get _ _ _ _ _ _ _ _ _ (kernelFor_lt hs ht htl) (by rw [h3]; omega) (Finset.mem_range.mp hp)]
  unfold elementsC
  push_cast
  ring

theorem typicalAtPairs_eq (hs : op.Sound) (ht : op.integral = .typical) (realKernel : Bool) (mem : Memory) (W : List ℝ)
    (g g' : Integrator.GeomData Values) (b b' : Basis) (i j : Nat) (hi : i < b.count) (hj : j < b'.count) :
    typicalAtPairs realKernel mem W g g' (transform op.testTransformations W.length b g) (transform op.trialTransformations W.length b' g')
      (kernelsAtPairs op.kernels W.length g g') i j =
    ∑ p ∈ range W.length, ((W.getD p 0 : ℝ) : ℂ) *
      (((dataAt g p).geom.integrationElement * (dataAt g' p).geom.integrationElement : ℝ) : ℂ) *
      op.integrand (dataAt g p) (dataAt g' p) (b.at_ i p) (b'.at_ j p) := by
  obtain ⟨h0, h1, h2, h3⟩ := hs.typical ht
  have hcomp := compatible op hs ht W.length W.length g g' b b'
  have hlen : (kernelsAtPairs op.kernels W.length g g').length = op.kernels.kernelCount := by simp [kernelsAtPairs]
  have hsum : pointSum op.testTransformations.length W.length (fun t => (op.testTransformations.map Transformation.dim).getD t 0)
      ((transform op.testTransformations W.length b g).map toComplex) ((transform op.trialTransformations W.length b' g').map toComplex)
      (kernelsAtPairs op.kernels W.length g g') (elementsC g) (elementsC g') (fun p => ((W.getD p 0 : ℝ) : ℂ)) i j =
      ∑ p ∈ range W.length, ((W.getD p 0 : ℝ) : ℂ) *
        (((dataAt g p).geom.integrationElement * (dataAt g' p).geom.integrationElement : ℝ) : ℂ) *
        op.integrand (dataAt g p) (dataAt g' p) (b.at_ i p) (b'.at_ j p) := by
    unfold pointSum BoundaryOperator.integrand
    rw [ht, Finset.sum_comm]
    refine Finset.sum_congr rfl fun p hp => ?_
    rw [Finset.mul_sum]
    refine Finset.sum_congr rfl fun t htl => ?_
    have htl := Finset.mem_range.mp htl
    rw [dot_eq hs ht _ _ _ _ _ _ htl _ _ _ _ hi hj]
    unfold kernelAt
    rw [hlen, kernelsAtPairs_get _ _ _ _ _ _ _ (kernelFor_lt hs ht htl) (by rw [h3]; omega)]
    unfold elementsC
    push_cast
    ring
  have hk : (kernelsAtPairs op.kernels W.length g g').length = 1 ∨
      (kernelsAtPairs op.kernels W.length g g').length = op.testTransformations.length := by rw [hlen]; exact h2
  unfold typicalAtPairs
  cases realKernel with
  | true =>
    rw [if_pos rfl]
    obtain ⟨r, hr, hv⟩ := C66_nontensor (testJ := elementsC g) (trialJ := elementsC g') (w := fun p => ((W.getD p 0 : ℝ) : ℂ))
      (compatible_complex hcomp) hk (fun p => ofReal_star _) (fun p => ofReal_star _) (fun p => ofReal_star _) mem.loop
    rw [hr, Option.getD_some, hv i j hi hj, hsum]
  | false =>
    rw [if_neg (by simp)]
    obtain ⟨r, hr, hv⟩ := C66_real_basis (testJ := fun p => (dataAt g p).geom.integrationElement)
      (trialJ := fun p => (dataAt g' p).geom.integrationElement) (w := fun p => W.getD p 0) hcomp hk mem.split
    rw [hr, Option.getD_some, hv i j hi hj]
    exact hsum

theorem onGrid_eq (hs : op.Sound) (mem : Memory) (W W' : List ℝ) (g g' : Integrator.GeomData Values) (b b' : Basis) (i j : Nat)
    (hi : i < b.count) (hj : j < b'.count) :
    op.onGrid mem W W' g g' (transform op.testTransformations W.length b g) (transform op.trialTransformations W'.length b' g')
      (kernelsOnGrid op.kernels W.length W'.length g g') i j =
    ∑ p ∈ range W.length, ∑ q ∈ range W'.length, ((W.getD p 0 * W'.getD q 0 : ℝ) : ℂ) *
      (((dataAt g p).geom.integrationElement * (dataAt g' q).geom.integrationElement : ℝ) : ℂ) *
      op.integrand (dataAt g p) (dataAt g' q) (b.at_ i p) (b'.at_ j q) := by
  cases hf : op.integral with
  | default f =>
    rw [show op.onGrid mem W W' = defaultOnGrid f W W' by unfold BoundaryOperator.onGrid; rw [hf]]
    exact defaultOnGrid_eq hs hf W W' g g' b b' i j hi hj
  | typical =>
    rw [show op.onGrid mem W W' = typicalOnGrid mem W W' by unfold BoundaryOperator.onGrid; rw [hf]]
    exact typicalOnGrid_eq hs hf mem W W' g g' b b' i j hi hj

theorem atPairs_eq (hs : op.Sound) (mem : Memory) (W : List ℝ) (g g' : Integrator.GeomData Values) (b b' : Basis) (i j : Nat)
    (hi : i < b.count) (hj : j < b'.count) :
    op.atPairs mem W g g' (transform op.testTransformations W.length b g) (transform op.trialTransformations W.length b' g')
      (kernelsAtPairs op.kernels W.length g g') i j =
    ∑ p ∈ range W.length, ((W.getD p 0 : ℝ) : ℂ) *
      (((dataAt g p).geom.integrationElement * (dataAt g' p).geom.integrationElement : ℝ) : ℂ) *
      op.integrand (dataAt g p) (dataAt g' p) (b.at_ i p) (b'.at_ j p) := by
  cases hf : op.integral with
  | default f =>
    rw [show op.atPairs mem W = defaultAtPairs f W by unfold BoundaryOperator.atPairs; rw [hf]]
    exact defaultAtPairs_eq hs hf W _ _ g g' b b' i j hi hj
  | typical =>
    rw [show op.atPairs mem W = typicalAtPairs op.realKernel mem W by unfold BoundaryOperator.atPairs; rw [hf]]
    exact typicalAtPairs_eq hs hf _ mem W g g' b b' i j hi hj

/-! ### The integrators -/

variable {addr : Type} {s : Setting addr}

theorem transformationDeps_mem (ts : List Transformation) (d : Deps) (f : Field) :
    fieldsOf (ts.foldl (fun d t => d.or ⟨t.deps, false, false⟩) d) f = true ↔
      fieldsOf d f = true ∨ ∃ t ∈ ts, fieldsOf ⟨t.deps, false, false⟩ f = true := by
  induction ts generalizing d with
  | nil => simp
  | cons t ts ih =>
    rw [List.foldl_cons, ih]
    have : fieldsOf (d.or ⟨t.deps, false, false⟩) f = true ↔ fieldsOf d f = true ∨ fieldsOf ⟨t.deps, false, false⟩ f = true := by
      cases f <;> simp [fieldsOf, Deps.or, GeomDeps.or]
    rw [this]
    simp only [List.mem_cons, exists_eq_or_imp]
    tauto

theorem transform_usesOnly (ts : List Transformation) (hts : ∀ t ∈ ts, ∀ b d d', AgreeOn ⟨t.deps, false, false⟩ d d' →
    t.evaluate b d.geom = t.evaluate b d'.geom) (P : Nat) (b : Basis) :
    UsesOnly (fieldsOf (transformationDeps ts)) (transform ts P b) := by
  intro g g' h
  unfold transform
  refine List.map_congr_left fun t ht => ?_
  have : ∀ p, AgreeOn ⟨t.deps, false, false⟩ (dataAt g p) (dataAt g' p) := agree_dataAt fun f hf =>
    h f ((transformationDeps_mem ts {} f).mpr (Or.inr ⟨t, ht, hf⟩))
  congr 1
  funext d dof p
  rw [hts t ht (b.at_ dof p) _ _ (this p)]

theorem kernels_agree (hs : op.Sound) {g g₁ g' g₁' : Integrator.GeomData Values}
    (h : ∀ f, fieldsOf ⟨{ normals := op.kernels.testNormals }, true, false⟩ f = true → g f = g₁ f)
    (h' : ∀ f, fieldsOf ⟨{ normals := op.kernels.trialNormals }, true, false⟩ f = true → g' f = g₁' f) (p q : Nat) :
    kernelValues op.kernels (sliceOf (dataAt g p)) (sliceOf (dataAt g' q)) =
      kernelValues op.kernels (sliceOf (dataAt g₁ p)) (sliceOf (dataAt g₁' q)) := by
  have a := agree_dataAt h p
  have a' := agree_dataAt h' q
  funext i r
  unfold kernelValues
  rw [hs.kernels _ (sliceOf (dataAt g₁ p)) _ (sliceOf (dataAt g₁' q)) (a.globals rfl) (a'.globals rfl) a.normals a'.normals]

theorem integral_agree (op : BoundaryOperator) {g g₁ : Integrator.GeomData Values}
    (h : ∀ f, fieldsOf op.integralDeps f = true → g f = g₁ f) (p : Nat) :
    (dataAt g p).geom.integrationElement = (dataAt g₁ p).geom.integrationElement ∧
      ∀ f, op.integral = .default f → AgreeOn f.deps (dataAt g p) (dataAt g₁ p) := by
  have a := agree_dataAt h p
  unfold BoundaryOperator.integralDeps at a h
  constructor
  · cases hi : op.integral with
    | default f =>
      rw [hi] at a
      exact a.integrationElements (by simp [Deps.or, GeomDeps.or])
    | typical =>
      rw [hi] at a
      exact a.integrationElements rfl
  · intro f hf
    rw [hf] at h
    refine agree_dataAt (fun x hx => h x ?_) p
    cases x <;> simp_all [fieldsOf, Deps.or, GeomDeps.or]

theorem dataAt_contents (mesh : FMesh) (points : Nat → ℝ × ℝ) (e p : Nat) :
    dataAt (contents mesh points e) p =
      mesh.fill e (points p) allDeps ⟨⟨⟨0, 0, 0⟩, ⟨0, 0, 0⟩, ⟨0, 0, 0⟩, ⟨0, 0, 0⟩, 0, ⟨0, 0, 0⟩⟩, ⟨0, 0, 0⟩, 0⟩ := rfl

/-- The functor does not read entries that do not exist nor data that are not declared. -/
theorem functor_usesOnly (hs : op.Sound) {f : IntegrandFunctor} (hf : op.integral = .default f) {d d₁ d' d₁' : Data}
    (h : AgreeOn f.deps d d₁) (h' : AgreeOn f.deps d' d₁') (test trial ker : Nat → Nat → ℂ) :
    f.evaluate d d' test trial ker = f.evaluate d₁ d₁' test trial ker :=
  hs.functor f hf d d₁ d' d₁' test test trial trial ker ker h h' (fun _ _ _ _ _ => rfl) (fun _ _ _ _ _ => rfl) fun _ _ _ _ => rfl

theorem onGrid_usesOnly (hs : op.Sound) (mem : Memory) (W W' : List ℝ) {g g₁ g' g₁' : Integrator.GeomData Values}
    (h : ∀ f, fieldsOf op.integralDeps f = true → g f = g₁ f) (h' : ∀ f, fieldsOf op.integralDeps f = true → g' f = g₁' f) :
    op.onGrid mem W W' g g' = op.onGrid mem W W' g₁ g₁' := by
  have a := fun p => integral_agree op h p
  have a' := fun p => integral_agree op h' p
  unfold BoundaryOperator.onGrid
  cases hf : op.integral with
  | default f =>
    funext test trial kernels i j
    unfold defaultOnGrid
    simp only [(a _).1, (a' _).1, functor_usesOnly hs hf ((a _).2 f hf) ((a' _).2 f hf)]
  | typical =>
    funext test trial kernels i j
    unfold typicalOnGrid
    have e : elementsC g = elementsC g₁ := by funext p; simp only [elementsC, (a p).1]
    have e' : elementsC g' = elementsC g₁' := by funext p; simp only [elementsC, (a' p).1]
    simp only [e, e']

theorem atPairs_usesOnly (hs : op.Sound) (mem : Memory) (W : List ℝ) {g g₁ g' g₁' : Integrator.GeomData Values}
    (h : ∀ f, fieldsOf op.integralDeps f = true → g f = g₁ f) (h' : ∀ f, fieldsOf op.integralDeps f = true → g' f = g₁' f) :
    op.atPairs mem W g g' = op.atPairs mem W g₁ g₁' := by
  have a := fun p => integral_agree op h p
  have a' := fun p => integral_agree op h' p
  unfold BoundaryOperator.atPairs
  cases hf : op.integral with
  | default f =>
    funext test trial kernels i j
    unfold defaultAtPairs
    simp only [(a _).1, (a' _).1, functor_usesOnly hs hf ((a _).2 f hf) ((a' _).2 f hf)]
  | typical =>
    funext test trial kernels i j
    unfold typicalAtPairs
    have e : elementsC g = elementsC g₁ := by funext p; simp only [elementsC, (a p).1]
    have e' : elementsC g' = elementsC g₁' := by funext p; simp only [elementsC, (a' p).1]
    simp only [e, e', (a _).1, (a' _).1]

theorem separable_honest (hs : s.op.Sound) (test trial : List QPoint) : (s.separable test trial).Honest where
  testTransformation := fun b => transform_usesOnly _ (fun t ht => hs.transformations t (Or.inl ht)) _ b
  trialTransformation := fun b => transform_usesOnly _ (fun t ht => hs.transformations t (Or.inr ht)) _ b
  kernelsTest := fun g d d' h => by
    show kernelsOnGrid s.op.kernels _ _ _ _ = kernelsOnGrid s.op.kernels _ _ _ _
    unfold kernelsOnGrid
    simp only [kernels_agree hs h (g' := g) (g₁' := g) fun _ _ => rfl]
  kernelsTrial := fun g d d' h => by
    show kernelsOnGrid s.op.kernels _ _ _ _ = kernelsOnGrid s.op.kernels _ _ _ _
    unfold kernelsOnGrid
    simp only [kernels_agree hs (g := g) (g₁ := g) (fun _ _ => rfl) h]
  integralTest := fun g v w k d d' h => by
    show s.op.onGrid _ _ _ d g v w k = s.op.onGrid _ _ _ d' g v w k
    rw [onGrid_usesOnly hs _ _ _ (g' := g) (g₁' := g) h fun _ _ => rfl]
  integralTrial := fun g v w k d d' h => by
    show s.op.onGrid _ _ _ g d v w k = s.op.onGrid _ _ _ g d' v w k
    rw [onGrid_usesOnly hs _ _ _ (g := g) (g₁ := g) (fun _ _ => rfl) h]

theorem nonseparable_honest (hs : s.op.Sound) (test trial : List (ℝ × ℝ)) (weights : List ℝ) :
    (s.nonseparable test trial weights).Honest where
  testTransformation := fun b => transform_usesOnly _ (fun t ht => hs.transformations t (Or.inl ht)) _ b
  trialTransformation := fun b => transform_usesOnly _ (fun t ht => hs.transformations t (Or.inr ht)) _ b
  kernelsTest := fun g d d' h => by
    show kernelsAtPairs s.op.kernels _ _ _ = kernelsAtPairs s.op.kernels _ _ _
    unfold kernelsAtPairs
    simp only [kernels_agree hs h (g' := g) (g₁' := g) fun _ _ => rfl]
  kernelsTrial := fun g d d' h => by
    show kernelsAtPairs s.op.kernels _ _ _ = kernelsAtPairs s.op.kernels _ _ _
    unfold kernelsAtPairs
    simp only [kernels_agree hs (g := g) (g₁ := g) (fun _ _ => rfl) h]
  integralTest := fun g v w k d d' h => by
    show s.op.atPairs _ _ d g v w k = s.op.atPairs _ _ d' g v w k
    rw [atPairs_usesOnly hs _ _ (g' := g) (g₁' := g) h fun _ _ => rfl]
  integralTrial := fun g v w k d d' h => by
    show s.op.atPairs _ _ g d v w k = s.op.atPairs _ _ g d' v w k
    rw [atPairs_usesOnly hs _ _ (g := g) (g₁ := g) (fun _ _ => rfl) h]

/-- The data of an element at a point. -/
noncomputable def full (mesh : FMesh) (e : Nat) (p : ℝ × ℝ) : Data :=
  mesh.fill e p allDeps ⟨⟨⟨0, 0, 0⟩, ⟨0, 0, 0⟩, ⟨0, 0, 0⟩, ⟨0, 0, 0⟩, 0, ⟨0, 0, 0⟩⟩, ⟨0, 0, 0⟩, 0⟩

/-- The sum over the nodes of a rule for the shape functions `i` and `j` of two shapesets. -/
noncomputable def Setting.localSum (s : Setting addr) (nodes : List ((ℝ × ℝ) × (ℝ × ℝ) × ℝ)) (a a' : addr) (e t i j : Nat) : ℂ :=
  (nodes.map fun n => ((n.2.2 : ℝ) : ℂ) *
    (((full s.testMesh e n.1).geom.integrationElement * (full s.trialMesh t n.2.1).geom.integrationElement : ℝ) : ℂ) *
    s.op.integrand (full s.testMesh e n.1) (full s.trialMesh t n.2.1) ((s.shapeset a).shape i n.1) ((s.shapeset a').shape j n.2.1)).sum

theorem sum_map_range {α : Type} (l : List α) (z : α) (f : α → ℂ) : (l.map f).sum = ∑ i ∈ range l.length, f (l.getD i z) := by
  have := zipIdx_sum l z (fun x _ => f x)
  rw [← this, foldl_sumC, zero_add]
  congr 1
  apply List.ext_getElem <;> simp

theorem tensor_sum (test trial : List QPoint) (f : (ℝ × ℝ) × (ℝ × ℝ) × ℝ → ℂ) :
    ((DoubleRule.tensor test trial).nodes.map f).sum = ∑ p ∈ range test.length, ∑ q ∈ range trial.length,
      f (coordinates (test.map fun q => (q.x, q.y)) p, coordinates (trial.map fun q => (q.x, q.y)) q,
        (test.map QPoint.w).getD p 0 * (trial.map QPoint.w).getD q 0) := by
  unfold DoubleRule.nodes
  rw [List.map_flatMap, List.flatMap_def, List.sum_flatten, List.map_map, sum_map_range test ⟨0, 0, 0⟩]
  refine Finset.sum_congr rfl fun p hp => ?_
  rw [Function.comp_apply, List.map_map, sum_map_range trial ⟨0, 0, 0⟩]
  refine Finset.sum_congr rfl fun q hq => ?_
  have hp := Finset.mem_range.mp hp
  have hq := Finset.mem_range.mp hq
  simp [coordinates, List.getD, List.getElem?_eq_getElem hp, List.getElem?_eq_getElem hq]

theorem separable_entries (hs : s.op.Sound) (test trial : List QPoint) (a a' : addr) (o o' : Option Nat) (e t i j : Nat)
    (hi : i < dofCount (s.shapeset a) o) (hj : j < dofCount (s.shapeset a') o') :
    (s.separable test trial).entries a a' o o' e t i j =
      s.localSum (DoubleRule.tensor test trial).nodes a a' e t (dofAt o i) (dofAt o' j) := by
  unfold Setting.localSum
  rw [tensor_sum]
  have := onGrid_eq hs s.memory (test.map QPoint.w) (trial.map QPoint.w)
    (contents s.testMesh (coordinates (test.map fun q => (q.x, q.y))) e)
    (contents s.trialMesh (coordinates (trial.map fun q => (q.x, q.y))) t)
    (evaluateBasis (s.shapeset a) (coordinates (test.map fun q => (q.x, q.y))) o)
    (evaluateBasis (s.shapeset a') (coordinates (trial.map fun q => (q.x, q.y))) o') i j hi hj
  simp only [List.length_map] at this
  unfold Parts.entries Setting.separable Setting.parts
  simp only [List.length_map]
  rw [this]
  rfl

theorem nonseparable_entries (hs : s.op.Sound) (test trial : List (ℝ × ℝ)) (weights : List ℝ) (h1 : test.length = weights.length)
    (h2 : trial.length = weights.length) (a a' : addr) (o o' : Option Nat) (e t i j : Nat)
    (hi : i < dofCount (s.shapeset a) o) (hj : j < dofCount (s.shapeset a') o') :
    (s.nonseparable test trial weights).entries a a' o o' e t i j =
      s.localSum (DoubleRule.nontensor test trial weights).nodes a a' e t (dofAt o i) (dofAt o' j) := by
  unfold Setting.localSum
  rw [show (DoubleRule.nontensor test trial weights).nodes = (List.range weights.length).map fun i =>
      (test.getD i (0, 0), trial.getD i (0, 0), weights.getD i 0) from rfl, List.map_map, ← List.sum_toFinset _ List.nodup_range,
    List.toFinset_range]
  have := atPairs_eq hs s.memory weights
    (contents s.testMesh (coordinates test) e)
    (contents s.trialMesh (coordinates trial) t)
    (evaluateBasis (s.shapeset a) (coordinates test) o)
    (evaluateBasis (s.shapeset a') (coordinates trial) o') i j hi hj
  unfold Parts.entries Setting.nonseparable Setting.parts
  simp only [h1, h2]
  rw [this]
  rfl

theorem separable_dofWise (hs : s.op.Sound) (test trial : List QPoint) : (s.separable test trial).DofWise where
  trial := fun a a' e t j i hj hi => by
    rw [separable_entries hs test trial a a' none (some j) e t i 0 hi (by simp [dofCount]),
      separable_entries hs test trial a a' none none e t i j hi hj]
    rfl
  test := fun a a' e t j i hj hi => by
    rw [separable_entries hs test trial a a' (some j) none e t 0 i (by simp [dofCount]) hi,
      separable_entries hs test trial a a' none none e t j i hj hi]
    rfl

theorem nonseparable_dofWise (hs : s.op.Sound) (test trial : List (ℝ × ℝ)) (weights : List ℝ) (h1 : test.length = weights.length)
    (h2 : trial.length = weights.length) : (s.nonseparable test trial weights).DofWise where
  trial := fun a a' e t j i hj hi => by
    rw [nonseparable_entries hs test trial weights h1 h2 a a' none (some j) e t i 0 hi (by simp [dofCount]),
      nonseparable_entries hs test trial weights h1 h2 a a' none none e t i j hi hj]
    rfl
  test := fun a a' e t j i hj hi => by
    rw [nonseparable_entries hs test trial weights h1 h2 a a' (some j) none e t 0 i (by simp [dofCount]) hi,
      nonseparable_entries hs test trial weights h1 h2 a a' none none e t j i hj hi]
    rfl

end Verif.Bio
