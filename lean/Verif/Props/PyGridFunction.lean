import Verif.Lemmas.PyGridFunction
import Verif.Props.PyBoundary
/-
C85: grid functions of the Python layer.
-/
namespace Verif.PyOp
noncomputable section

/-- One allowed action. -/
theorem gstep_ok {core : Core} (hm : core.Masses) {h : Heap} {ah : AHeap} (hh : HeapOk core h ah) (a : GAction)
    (ha : Allowed core h a) :
    ∃ ah', Expected core (fun i => (h.obj i).dual) ah a (gstep core a h).1 ah' ∧ HeapOk core (gstep core a h).2 ah' := by
  cases a with
  | new s d f c p =>
    cases f with
    | none =>
      cases c with
      | none =>
        cases p with
        | none => exact ⟨ah, ⟨rfl, rfl⟩, hh⟩
        | some p =>
          obtain ⟨h1, h2⟩ : VecOf p (core.dofs (d.getD s)) ∧ Nonsingular core s (d.getD s) := ha
          obtain ⟨-, w, -, -, w3, -⟩ := inverse_apply hm h2 h1
          obtain ⟨r1, r2⟩ := hh.push (new_duals h2 w3).1
          exact ⟨_, ⟨r1, w, w3, rfl⟩, r2⟩
      | some v =>
        cases p with
        | none =>
          have h1 : VecOf v (core.dofs s) := ha
          have hv : VecIs v (core.dofs s) (fun i => v.e i 0) := ⟨h1.1, h1.2.1, h1.2.2, fun _ _ => rfl⟩
          obtain ⟨r1, r2⟩ := hh.push (new_coeffs (d := d) hv)
          exact ⟨_, ⟨r1, _, hv, rfl⟩, r2⟩
        | some p => exact ⟨ah, ⟨rfl, rfl⟩, hh⟩
    | some f =>
      cases c with
      | none =>
        cases p with
        | none =>
          obtain ⟨h1, h2⟩ : VecOf f (core.dofs (d.getD s)) ∧ Nonsingular core s (d.getD s) := ha
          obtain ⟨-, w, -, -, w3, -⟩ := inverse_apply hm h2 h1
          obtain ⟨r1, r2⟩ := hh.push (new_duals h2 w3).2
          exact ⟨_, ⟨r1, w, w3, rfl⟩, r2⟩
        | some p => exact ⟨ah, ⟨rfl, rfl⟩, hh⟩
      | some v =>
        cases p with
        | none => exact ⟨ah, ⟨rfl, rfl⟩, hh⟩
        | some p => exact ⟨ah, ⟨rfl, rfl⟩, hh⟩
  | coefficients i =>
    obtain ⟨c, f', h1, h2, h3, -⟩ := coefficients_ok hm (hh.2 i ha)
    simp only [gstep, h1]
    exact ⟨ah, ⟨⟨c, rfl, h2⟩, rfl⟩, hh.set h3⟩
  | projections i E =>
    obtain ⟨y, f', h1, h2, h3, -⟩ := projections_ok hm (hh.2 i ha.1) E ha.2
    simp only [gstep, h1]
    exact ⟨ah, ⟨⟨y, rfl, h2⟩, rfl⟩, hh.set h3⟩
  | setCoefficients i v =>
    obtain ⟨hi, h1⟩ := ha
    have hs := (hh.2 i hi).space
    rw [hs] at h1
    have hv : VecIs v (core.dofs (ah.obj i).space) (fun i => v.e i 0) := ⟨h1.1, h1.2.1, h1.2.2, fun _ _ => rfl⟩
    simp only [gstep, GF.setCoefficients, h1.1, Bool.false_eq_true, if_false]
    refine ⟨ah.set i ⟨(ah.obj i).space, fun i => v.e i 0⟩, ⟨rfl, _, hv, rfl⟩, hh.1, fun j hj => ?_⟩
    show Stands core (if j = i then _ else h.obj j) (if j = i then _ else ah.obj j)
    split
    · exact ⟨hs, fun c hc => (by cases hc; exact hv), fun p hp => (by cases hp), fun _ => (by simp), fun hp => (by cases hp)⟩
    · exact hh.2 j hj
  | add i j =>
    obtain ⟨hi, hj⟩ := ha
    by_cases hs : (ah.obj i).space = (ah.obj j).space
    · obtain ⟨r1, r2⟩ := add_ok' hm hh hi hj hs
      refine ⟨_, ?_, r2⟩
      show if _ then _ else _
      rw [if_pos hs]
      exact ⟨r1, rfl⟩
    · have : gstep core (.add i j) h = (.error .ValueError, h) := by
        simp only [gstep, Heap.add]
        rw [if_pos (by rw [(hh.2 i hi).space, (hh.2 j hj).space]; exact hs)]
      rw [this]
      refine ⟨ah, ?_, hh⟩
      show if _ then _ else _
      rw [if_neg hs]
      exact ⟨rfl, rfl⟩
  | smul s i =>
    obtain ⟨r1, r2⟩ := hh.push (smul_stands hm (hh.2 i ha) s)
    exact ⟨_, ⟨r1, rfl⟩, r2⟩
  | real i =>
    obtain ⟨r1, r2⟩ := hh.push (part_stands hm (hh.2 i ha) Arr.real (fun z => (z.re : ℂ))
      (fun x n v hv => ⟨hv.1, hv.2.1, hv.2.2.1, fun i hi => by simp only [Arr.real]; rw [hv.2.2.2 i hi]⟩)
      (fun s E v i => proj_re hm s E v i))
    exact ⟨_, ⟨r1, rfl⟩, r2⟩
  | imag i =>
    obtain ⟨r1, r2⟩ := hh.push (part_stands hm (hh.2 i ha) Arr.imag (fun z => (z.im : ℂ))
      (fun x n v hv => ⟨hv.1, hv.2.1, hv.2.2.1, fun i hi => by simp only [Arr.imag]; rw [hv.2.2.2 i hi]⟩)
      (fun s E v i => proj_im hm s E v i))
    exact ⟨_, ⟨r1, rfl⟩, r2⟩
  | apply op domain range dual i =>
    obtain ⟨hi, hn, hM⟩ := ha
    by_cases hc : core.compatible domain (ah.obj i).space = true
    · obtain ⟨r1, w, r2, r3⟩ := apply_ok' hm hh hi hn hM hc
      refine ⟨_, ?_, r3⟩
      simp only [Expected, if_pos hc]
      exact ⟨r1, w, r2, rfl⟩
    · have : gstep core (.apply op domain range dual i) h = (.error .ValueError, h) := by
        simp only [gstep, Heap.apply]
        rw [if_pos (by rw [(hh.2 i hi).space]; exact hc)]
      rw [this]
      refine ⟨ah, ?_, hh⟩
      show if _ then _ else _
      rw [if_neg hc]
      exact ⟨rfl, rfl⟩

/-- Grid functions constructed, combined, modified and queried in any order: coefficients and projections returned are always those of
the function the object stands for, whatever has been computed, cached and requested before.  Missing: `projections` onto a space
other than `dual_space` while `representation` is `'dual'` (see the counterexample). -/
theorem C85_histories_partial (core : Core) (hm : core.Masses) (l : List GAction) (h : Heap) (h0 : h.size = 0)
    (ha : AllAllowed core l h) (ah : AHeap) (ah0 : ah.size = 0) : AsExpected core l h ah (grun core l h).1 := by
  have key : ∀ (l : List GAction) (h : Heap) (ah : AHeap), HeapOk core h ah → AllAllowed core l h →
      AsExpected core l h ah (grun core l h).1 := by
    intro l
    induction l with
    | nil => intro h ah _ _; rfl
    | cons a l ih =>
      intro h ah hh hal
      obtain ⟨ah', h1, h2⟩ := gstep_ok hm hh a hal.1
      exact ⟨_, _, ah', rfl, h1, ih _ _ h2 hal.2⟩
  exact key l h ah ⟨by rw [h0, ah0], fun i hi => by omega⟩ ha

/-- `projections(E)` of a function given by its projections `p` onto another space of the same dimension returns `p` itself, and from
then on the coefficients are those of the function whose projections onto `E` are `p`. -/
theorem C85_counterexample_projections (core : Core) (hm : core.Masses) (s D E : Space) (p : Arr) (hp : VecOf p (core.dofs D))
    (hDE : core.dofs D = core.dofs E) (hne : E ≠ D) (hn : Nonsingular core s E) (f : GF)
    (hf : GF.new s (some D) none none (some p) = .ok f) :
    ∃ y g, f.projections core (some E) = (.ok y, g) ∧ VecIs y (core.dofs E) (fun i => p.e i 0) ∧
      ∃ c w, g.coefficients core = (.ok c, g) ∧ VecIs c (core.dofs s) w ∧
        ∀ i < core.dofs E, proj core ⟨s, w⟩ E i = p.e i 0 := by
  cases hf
  have hp' : VecOf p (core.dofs E) := by rw [← hDE]; exact hp
  obtain ⟨c, w, c1, c2, c3, -⟩ := inverse_apply hm hn hp'
  obtain ⟨y, y1, y2⟩ := sparse_apply (f := ⟨s, w⟩) hm c2 E
  have hpr : ∀ i < core.dofs E, proj core ⟨s, w⟩ E i = p.e i 0 := fun i hi => (c3.2.2.2 i hi).symm
  refine ⟨y, ⟨s, E, some c, some y, true⟩, ?_, y2.congr hpr, c, w, rfl, c2, hpr⟩
  unfold GF.projections
  dsimp only [Option.getD_some]
  rw [if_neg hne]
  unfold GF.project GF.coefficients
  dsimp only
  rw [c1]
  dsimp only
  rw [y1]

/-- The concrete case: two copies of a space, `<u, v> = 2 u v` for the first and `4 u v` for the second; the function with projections
(2, 2) onto the first has the projections (4, 4) onto the second, but (2, 2) is returned. -/
theorem C85_counterexample_values : ∃ (core : Core) (f : GF) (y : Arr), core.Masses ∧
    GF.new 0 none none none (some ⟨false, 2, 1, false, fun _ _ => 2⟩) = .ok f ∧
    VecIs ⟨false, 2, 1, false, fun _ _ => 2⟩ 2 (proj core ⟨0, fun _ => 1⟩ 0) ∧
    (f.projections core (some 1)).1 = .ok y ∧ y.e 0 0 = 2 ∧ proj core ⟨0, fun _ => 1⟩ 1 0 = 4 := by
  let M : Nat → Arr := fun t => ⟨true, 2, 2, false, fun i j => if i = j then (if t = 0 then 2 else 4) else 0⟩
  have hm : (Core.mk (fun _ => 2) (fun _ _ => true) (fun _ _ => .zero 0 0) (fun _ t => M t)).Masses := by
    refine ⟨fun _ _ _ => rfl, fun _ _ => rfl, fun _ _ => rfl, fun d t i j => ?_⟩
    show star (if i = j then (if t = 0 then (2 : ℂ) else 4) else 0) = if i = j then (if t = 0 then (2 : ℂ) else 4) else 0
    split
    · split
      · exact Complex.conj_ofReal 2
      · exact Complex.conj_ofReal 4
    · exact star_zero _
  have hfr : FullRank (M 1) := by
    refine (fullRank_tall (le_refl _)).mpr ?_
    have key : ∀ u v : Fin 2 → ℂ, (toM 2 2 (M 1).e).mulVec u = (toM 2 2 (M 1).e).mulVec v → u = v := by
      intro u v huv
      have h0 := congrFun huv 0
      have h1 := congrFun huv 1
      simp [Matrix.mulVec, dotProduct, toM, M, Fin.sum_univ_two] at h0 h1
      funext i
      fin_cases i
      · exact h0
      · exact h1
    exact fun u v huv => key u v huv
  obtain ⟨y, g, h1, h2, -⟩ := C85_counterexample_projections _ hm 0 0 1 ⟨false, 2, 1, false, fun _ _ => 2⟩ ⟨rfl, rfl, rfl⟩ rfl
    (by decide) ⟨rfl, by simp, hfr⟩ ⟨0, 0, none, some ⟨false, 2, 1, false, fun _ _ => 2⟩, false⟩ rfl
  refine ⟨_, _, y, hm, rfl, ⟨rfl, rfl, rfl, fun i hi => ?_⟩, (congrArg Prod.fst h1 :), h2.2.2.2 0 (by simp), ?_⟩
  · simp only [proj, M]
    rw [Finset.sum_eq_single i]
    · simp
    · intro b _ hb
      rw [if_neg (fun hh => hb hh.symm), zero_mul]
    · intro hh
      exact absurd (Finset.mem_range.mpr hi) hh
  · simp [proj, M, Finset.sum_range_succ]

/-- The attribute `dual_space` of `alpha * f`, and so `(alpha * f).projections()`, depends on whether the coefficients of `f` have been
requested. -/
theorem C85_counterexample_dual_space (core : Core) (s D : Space) (hD : D ≠ s) (p c : Arr) (f : GF) (alpha : Scalar)
    (hf : GF.new s (some D) none none (some p) = .ok f) (hc : (f.coefficients core).1 = .ok c) (h1 : c.twoD = false) :
    (∃ g, f.smul core alpha = .ok g ∧ g.dual = D) ∧ (∃ g, (f.coefficients core).2.smul core alpha = .ok g ∧ g.dual = s) := by
  cases hf
  refine ⟨⟨_, rfl, rfl⟩, ?_⟩
  simp only [GF.coefficients] at hc ⊢
  cases hcc : computeCoefficients core s p D with
  | error e => simp only [Option.getD_some, hcc] at hc; cases hc
  | ok c' =>
    simp only [Option.getD_some, hcc] at hc ⊢
    cases hc
    refine ⟨⟨s, s, some (c.smul alpha), none, true⟩, ?_, rfl⟩
    have : (c.smul alpha).twoD = false := h1
    simp [GF.smul, GF.coefficients, GF.new, GF.setCoefficients, this]

/-- Coefficient vectors of any length are accepted. -/
theorem C85_counterexample_length (s : Space) (n : Nat) (e : Nat → Nat → ℂ) :
    ∃ f, GF.new s none none (some ⟨false, n, 1, false, e⟩) none = .ok f := ⟨_, rfl⟩

theorem inverse_denotes (A : Arr) (hf : FullRank A) (hc : A.cols ≤ A.rows) : ∃ X : Matrix (Fin A.cols) (Fin A.rows) ℂ,
    Denotes (.inverse A) A.cols A.rows X ∧
    ∀ (g : Nat → ℂ) (i : Fin A.cols), ∑ k : Fin A.rows, X i k * (∑ j : Fin A.cols, A.e k j * g j) = g i := by
  obtain ⟨X, hX, hXA, -⟩ := mp_exists A hf
  refine ⟨X, .inverse _ X hX, fun g i => ?_⟩
  have key := congrFun (congrArg (fun M => M.mulVec (fun j : Fin A.cols => g j)) (hXA hc)) i
  simp only [Matrix.one_mulVec] at key
  rw [← Matrix.mulVec_mulVec] at key
  exact key

/-- Applying a product of operators is applying one after the other: if `g` is the function with the projections of `B f`, then the
projections of `A g` are those of `(A * B) f`. -/
theorem C85_composition (core : Core) (nodes : Nat → Node) (hm : core.Masses) (i a b : Nat) (τ : Nat → Nat)
    (hi : mkProduct core nodes a b = .ok (nodes i)) (u v : Expr) (hu : Formula core nodes τ a u) (hv : Formula core nodes τ b v)
    (hn : Nonsingular core (nodes b).range (nodes b).dualToRange)
    (A : Matrix (Fin (core.dofs (nodes a).dualToRange)) (Fin (core.dofs (nodes a).domain)) ℂ)
    (B : Matrix (Fin (core.dofs (nodes b).dualToRange)) (Fin (core.dofs (nodes b).domain)) ℂ)
    (hA : Denotes u _ _ A) (hB : Denotes v _ _ B) :
    ∃ (e : Expr) (P : Matrix (Fin (core.dofs (nodes a).dualToRange)) (Fin (core.dofs (nodes b).domain)) ℂ),
      Formula core nodes τ i e ∧ Denotes e _ _ P ∧
      ∀ (f g : Nat → ℂ), (∀ k : Fin (core.dofs (nodes b).dualToRange),
          proj core ⟨(nodes b).range, g⟩ (nodes b).dualToRange k = ∑ j, B k j * f j) →
        ∀ k : Fin (core.dofs (nodes a).dualToRange), ∑ j, A k j * g j = ∑ j, P k j * f j := by
  have hcompat : core.compatible (nodes b).range (nodes a).domain = true := by
    unfold mkProduct at hi
    split at hi
    · cases hi
    · rename_i hh; simpa using hh
  have hk : (nodes i).kind = .product a b := by
    unfold mkProduct at hi
    split at hi
    · cases hi
    · rw [← Except.ok.inj hi]
  have hdim := hm.compatible _ _ hcompat
  have hI := inverse_denotes (core.mass (nodes b).range (nodes b).dualToRange) hn.2.2 (by rw [hm.rows, hm.cols, hn.1])
  have hI2 : ∃ X : Matrix (Fin (core.dofs (nodes a).domain)) (Fin (core.dofs (nodes b).dualToRange)) ℂ,
      Denotes (.inverse (core.mass (nodes b).range (nodes b).dualToRange)) _ _ X ∧
      ∀ (g : Nat → ℂ) i, ∑ k, X i k * proj core ⟨(nodes b).range, g⟩ (nodes b).dualToRange k = g i := by
    have hp : ∀ g k, proj core ⟨(nodes b).range, g⟩ (nodes b).dualToRange k =
        ∑ j : Fin (core.mass (nodes b).range (nodes b).dualToRange).cols,
          (core.mass (nodes b).range (nodes b).dualToRange).e k j * g j := by
      intro g k
      unfold proj
      rw [← hm.cols (nodes b).range (nodes b).dualToRange, Finset.sum_range]
    simp only [← hp] at hI
    rw [hm.rows, hm.cols, hdim] at hI
    exact hI
  obtain ⟨X, hX1, hX2⟩ := hI2
  refine ⟨_, A * (X * B), .product hk hu hv, .mul hA (.mul hX1 hB), fun f g hg k => ?_⟩
  have hg' : ∀ j : Fin (core.dofs (nodes a).domain), g j = X.mulVec (B.mulVec fun l => f l) j := by
    intro j
    rw [← hX2 g j]
    exact Finset.sum_congr rfl fun k _ => by rw [hg k]; rfl
  have : ∑ j, (A * (X * B)) k j * f j = ((A * (X * B)).mulVec fun l => f l) k := rfl
  rw [this, ← Matrix.mulVec_mulVec, ← Matrix.mulVec_mulVec]
  exact Finset.sum_congr rfl fun j _ => by rw [hg' j]

/-- The norm: if the mass matrix is computed by a quadrature rule with weights `weight q` and values `φ q i` of the basis functions,
`l2_norm()` is the square root of the quadrature of the square of the function's modulus. -/
theorem C85_norm (core : Core) (hm : core.Masses) (s : Space) (c : Arr) (v : Nat → ℂ) (hc : VecIs c (core.dofs s) v) (points : Nat)
    (weight : Nat → ℝ) (hw : ∀ q < points, 0 ≤ weight q) (φ : Nat → Nat → ℝ)
    (hM : ∀ i < core.dofs s, ∀ j < core.dofs s,
      (core.mass s s).e i j = ((∑ q ∈ Finset.range points, weight q * φ q i * φ q j : ℝ) : ℂ)) :
    l2NormSquared core s c =
      ∑ q ∈ Finset.range points, weight q * ‖∑ i ∈ Finset.range (core.dofs s), v i * (φ q i : ℂ)‖ ^ 2 := by
  unfold l2NormSquared
  rw [hc.2.1, hm.cols]
  have key : (∑ i ∈ Finset.range (core.dofs s), star (c.e i 0) * ∑ j ∈ Finset.range (core.dofs s), (core.mass s s).e i j * c.e j 0) =
      ((∑ q ∈ Finset.range points, weight q * ‖∑ i ∈ Finset.range (core.dofs s), v i * (φ q i : ℂ)‖ ^ 2 : ℝ) : ℂ) := by
    have h1 : ∀ i ∈ Finset.range (core.dofs s), star (c.e i 0) * ∑ j ∈ Finset.range (core.dofs s), (core.mass s s).e i j * c.e j 0 =
        ∑ q ∈ Finset.range points, ∑ j ∈ Finset.range (core.dofs s),
          (weight q : ℂ) * (star (v i * (φ q i : ℂ)) * (v j * (φ q j : ℂ))) := by
      intro i hi
      rw [Finset.sum_comm, Finset.mul_sum]
      refine Finset.sum_congr rfl fun j hj => ?_
      rw [hM i (Finset.mem_range.mp hi) j (Finset.mem_range.mp hj), hc.2.2.2 i (Finset.mem_range.mp hi),
        hc.2.2.2 j (Finset.mem_range.mp hj), Complex.ofReal_sum, Finset.sum_mul, Finset.mul_sum]
      refine Finset.sum_congr rfl fun q _ => ?_
      rw [star_mul', show star ((φ q i : ℝ) : ℂ) = (φ q i : ℂ) from Complex.conj_ofReal _]
      push_cast
      ring
    rw [Finset.sum_congr rfl h1, Finset.sum_comm]
    rw [Complex.ofReal_sum]
    refine Finset.sum_congr rfl fun q _ => ?_
    rw [Complex.ofReal_mul, Complex.ofReal_pow, ← Complex.conj_mul']
    rw [map_sum, Finset.sum_mul_sum, Finset.mul_sum]
    refine Finset.sum_congr rfl fun i _ => ?_
    rw [Finset.mul_sum]
    rfl
  rw [key, Complex.norm_real, Real.norm_of_nonneg]
  exact Finset.sum_nonneg fun q hq => mul_nonneg (hw q (Finset.mem_range.mp hq)) (by positivity)

/-- `integrate` adds the contributions of all elements for real scalar functions.  Missing: other functions (see the
counterexample). -/
theorem C85_integrate_partial (terms : List (Nat → ℂ)) :
    ∃ y, integrate 1 false terms = .ok y ∧ y.rows = 1 ∧ y.cols = 1 ∧ y.e 0 0 = (terms.map fun t => t 0).sum := by
  have key : ∀ (terms : List (Nat → ℂ)) (res : Arr), ∃ y, terms.foldlM (fun (res : Arr) term =>
      if false = true then (.error .TypeError : Res Arr)
      else if 1 ≠ 1 then .error .ValueError
      else .ok { res with e := fun i j => res.e i j + term i }) res = .ok y ∧ y.rows = res.rows ∧ y.cols = res.cols ∧
      y.e 0 0 = res.e 0 0 + (terms.map fun t => t 0).sum := by
    intro terms
    induction terms with
    | nil => intro res; exact ⟨res, rfl, rfl, rfl, by simp⟩
    | cons t l ih =>
      intro res
      obtain ⟨y, h1, h2, h3, h4⟩ := ih { res with e := fun i j => res.e i j + t i }
      refine ⟨y, h1, h2, h3, ?_⟩
      rw [h4]
      simp [add_assoc]
  obtain ⟨y, h1, h2, h3, h4⟩ := key terms ⟨true, 1, 1, false, fun _ _ => 0⟩
  exact ⟨y, h1, h2, h3, by simpa using h4⟩

/-- `integrate` raises an exception for every complex or vector-valued function on a grid with at least one element. -/
theorem C85_counterexample_integrate (components : Nat) (complex : Bool) (t : Nat → ℂ) (terms : List (Nat → ℂ))
    (h : complex = true ∨ components ≠ 1) : ∃ e, integrate components complex (t :: terms) = .error e := by
  unfold integrate
  rw [List.foldlM_cons]
  by_cases hc : complex = true
  · rw [if_pos hc]; exact ⟨_, rfl⟩
  · rw [if_neg hc, if_pos (h.resolve_left hc)]; exact ⟨_, rfl⟩

/-! ### The hypotheses are met -/

/-- A history: a function given by projections, one given by coefficients, a multiple, queries, a sum, a real part. -/
theorem example_functions : exampleCore.Masses ∧
    AllAllowed exampleCore [.new 0 none none none (some ⟨false, 2, 1, false, fun _ _ => 2⟩),
      .new 0 none none (some ⟨false, 2, 1, true, fun _ _ => Complex.I⟩) none, .projections 1 (some 1), .smul ⟨3, false⟩ 0,
      .coefficients 0, .projections 0 none, .add 0 1] ⟨fun _ => ⟨0, 0, none, none, true⟩, 0⟩ := by
  have hn : Nonsingular exampleCore 0 0 := ⟨rfl, by simp [exampleCore], exampleMass_fullRank⟩
  refine ⟨⟨fun _ _ _ => rfl, fun _ _ => rfl, fun _ _ => rfl, fun _ _ i j => ?_⟩, ?_⟩
  · show star (if i = j then (2 : ℂ) else 0) = if i = j then (2 : ℂ) else 0
    split
    · exact Complex.conj_ofReal 2
    · exact star_zero _
  · refine ⟨⟨⟨rfl, rfl, rfl⟩, hn⟩, ⟨rfl, rfl, rfl⟩, ⟨?_, Or.inl rfl⟩, ?_, ?_, ⟨?_, Or.inr rfl⟩, ⟨?_, ?_⟩, trivial⟩
    · show 1 < 2; omega
    · show 0 < 2; omega
    · show 0 < 3; omega
    · show 0 < 3; omega
    · show 0 < 3; omega
    · show 1 < 3; omega

end

end Verif.PyOp
