import Verif.Lemmas.PyPotential
import Verif.Props.PySolvers
/-
C90: potential operators of the Python layer.  C91: the direct solver.
-/
namespace Verif.PyOp
open Verif.DiscreteOp
noncomputable section

/-- Every expression built with `+`, `-` and numbers from potential operators with the same points and number of components evaluates,
keeps them, and its values are the same expression of the values of its parts; `evaluate` returns the components as rows and the points
as columns. -/
theorem C90_algebra (core : Core) (leaves : Nat → Potential) (components dofs : Nat) (h0 : components ≠ 0) (points : Points)
    (hd : points.dim ≠ 0) (matrix : Nat → Nat → Nat → ℂ) (hl : ∀ i, IsAssembled core (leaves i) components dofs points (matrix i))
    (hcomp : ∀ i j, core.compatible (leaves i).space (leaves j).space = true) (e : PExpr) (ht : e.Typed) :
    ∃ P, e.eval core leaves = .ok P ∧ P.components = components ∧ (∃ i, P.space = (leaves i).space) ∧ P.points.Same points ∧
      ∀ (f : GF) (c : Arr) (u : Nat → ℂ), (f.coefficients core).1 = .ok c → VecIs c dofs u → ∃ Y, P.evaluate core f = .ok Y ∧
        Y.rows = components ∧ Y.cols = points.count ∧ ∀ i < components, ∀ p < points.count,
          Y.e i p = e.value fun k => ∑ q ∈ Finset.range dofs, matrix k (i + components * p) q * u q := by
  choose h1 h2 h3 z h4 h5 using hl
  set f : Nat → Expr := fun i => .nonlocal (z i) (components * points.count) dofs (matrix i) with hf
  have hfe : ∀ i, (f i).eval = .ok (leaves i).op := fun i => by rw [h4 i]; rfl
  have hf' : ∀ i, (f i).Wellformed ∧ (f i).Plain ∧
      Denotes (f i) (components * points.count) dofs (Matrix.of fun r c => matrix i r c) := fun i =>
    ⟨h5 i, ⟨fun _ h => (by cases h), fun _ h => (by cases h)⟩, Denotes.nonlocal _ _ _ _⟩
  obtain ⟨P, p1, p2, p3, p4, p5, p6, p7⟩ := eval_potential core leaves components dofs points hd matrix
    (fun i => ⟨h1 i, h2 i, h3 i, z i, h4 i, h5 i⟩) hcomp f hfe hf' e ht
  refine ⟨P, p1, p2, p3, p4, fun g c u hc hu => ?_⟩
  obtain ⟨w1, w2, w3⟩ := toExpr_ok f (fun i => Matrix.of fun r c => matrix i r c) hf' e ht
  obtain ⟨op, q1, q2⟩ := C81_expressions _ w1 w2 _ w3
  rw [p7] at q1
  cases q1
  obtain ⟨y, y1, y2, y3, y4, y5⟩ := (q2.2 c hu.2.1 (by rw [hu.2.2.1]) (fun _ => hu.2.2.1)).1
  rw [hu.2.2.1] at y4 y5
  refine ⟨⟨true, components, y.rows * y.cols / components, y.complex, fun i j => y.e (i + components * j) 0⟩, ?_, rfl, ?_, ?_⟩
  · unfold Potential.evaluate
    rw [hc]
    show (do let res ← P.op.apply c; res.reshapeF P.components) = _
    rw [y1]
    show y.reshapeF P.components = _
    unfold Arr.reshapeF
    rw [p2, if_neg]
    rw [y3, y4, mul_one, Nat.mul_mod_right]
    rintro (h | h)
    · exact h0 h
    · exact h rfl
  · show y.rows * y.cols / components = points.count
    rw [y3, y4, mul_one, Nat.mul_div_cancel_left _ (Nat.pos_of_ne_zero h0)]
  · intro i hi p hp
    have hlt : i + components * p < components * points.count := by
      calc i + components * p < components * (p + 1) := by rw [Nat.mul_succ]; omega
        _ ≤ components * points.count := Nat.mul_le_mul_left _ (by omega)
    have := congrFun (y5 0 (by omega)) ⟨i + components * p, hlt⟩
    show y.e (i + components * p) 0 = _
    rw [this, PExpr.matrix_mulVec]
    have hk : (fun (k : Nat) => (Matrix.of fun (r : Fin (components * points.count)) (c : Fin dofs) => matrix k r c).mulVec
        (fun q : Fin dofs => c.e q 0) ⟨i + components * p, hlt⟩) =
        fun (k : Nat) => (∑ q ∈ Finset.range dofs, matrix k (i + components * p) q * u q : ℂ) := by
      funext k
      rw [Finset.sum_range (fun q => matrix k (i + components * p) q * u q)]
      show ∑ q : Fin dofs, matrix k (i + components * p) q * c.e q 0 = _
      refine Finset.sum_congr rfl fun q _ => ?_
      rw [hu.2.2.2 q q.2]
    exact congrArg (fun x => e.value x) hk

/-- Sums of potential operators with different numbers of components, different evaluation points or incompatible spaces are refused
with ValueError. -/
theorem C90_refused (core : Core) (P Q : Potential) (dP dQ : Nat) (hP : P.op.shape = (P.components * P.points.count, dP))
    (hQ : Q.op.shape = (Q.components * Q.points.count, dQ)) (hcomp : P.op.Composite) (h0 : P.components ≠ 0)
    (h3 : P.points.dim = Q.points.dim)
    (h : P.components ≠ Q.components ∨ ¬ P.points.Same Q.points ∨ core.compatible P.space Q.space = false) :
    P.add core Q = .error .ValueError := by
  unfold Potential.add Potential.compatible
  by_cases hc : P.components = Q.components
  · rw [if_neg (fun hh => hh hc)]
    cases hd : P.points.distance Q.points with
    | error x =>
      have : x = .ValueError := by
        unfold Points.distance at hd
        split at hd
        · split at hd <;> cases hd
          rfl
        · cases hd; rfl
      rw [this]
      rfl
    | ok d =>
      show (do let c ← (if d ≠ 0 then Except.ok false else Except.ok (core.compatible P.space Q.space))
               if c = false then Except.error Exn.ValueError else _) = _
      by_cases hz : d = 0
      · subst hz
        rw [if_neg (fun hh => hh rfl)]
        show (if core.compatible P.space Q.space = false then Except.error Exn.ValueError else _) = _
        by_cases hs : core.compatible P.space Q.space = false
        · rw [if_pos hs]
        · rw [if_neg hs]
          have hne : ¬ P.points.Same Q.points := by
            rcases h with h | h | h
            · exact absurd hc h
            · exact h
            · exact absurd h hs
          have hcount : P.points.count ≠ Q.points.count := fun hh => hne (distance_zero hd h3 hh)
          rw [composite_add hcomp, if_pos]
          · rfl
          · rw [hP, hQ, ← hc]
            intro hh
            exact hcount (Nat.eq_of_mul_eq_mul_left (Nat.pos_of_ne_zero h0) (Prod.mk.inj hh).1)
      · rw [if_pos hz]
        rfl
  · rw [if_pos hc]
    rfl

/-- The constructors return assembled operators on the coarse version of a barycentric space. -/
theorem C90_constructors (components : Nat) (nonBarycentric : Space → Option Space) (complex : Bool) (core : Core)
    (matrix : Space → Points → Nat → Nat → ℂ) (hz : complex = false → ∀ s p i j, star (matrix s p i j) = matrix s p i j)
    (space : Space) (points : Points) (args : CallArgs) (hp : args.pointsByPosition = true) (hk : args.keyword ≠ some false)
    (coarse : Space) (hc : coarse = (nonBarycentric space).getD space) :
    ∃ P, makePotential components nonBarycentric
        (fun s p => ⟨complex, components * p.count, core.dofs s, matrix s p, .NO_TRANSPOSE⟩) space points args = .ok P ∧
      P.space = coarse ∧ IsAssembled core P components (core.dofs coarse) points (matrix coarse points) := by
  subst hc
  unfold makePotential
  rw [if_neg hk, if_neg (by rw [hp]; decide)]
  exact ⟨_, rfl, rfl, rfl, rfl, ⟨rfl, rfl, fun _ _ _ _ => rfl⟩, complex, rfl, fun h => hz h _ _⟩

/-- The documented default `parameters=None`, passed by keyword, fails in the logger, and so does `evaluation_points` passed by keyword. -/
theorem C90_counterexample_logger (components : Nat) (nonBarycentric : Space → Option Space) (assembled : Space → Points → Backend)
    (space : Space) (points : Points) :
    makePotential components nonBarycentric assembled space points ⟨true, some false⟩ = .error .AttributeError ∧
    makePotential components nonBarycentric assembled space points ⟨false, none⟩ = .error .IndexError := ⟨rfl, rfl⟩

/-- `evaluate` does not look at the space of the function: a function of an incompatible space with as many dofs is evaluated with the
basis functions of the operator's space. -/
theorem C90_counterexample_space : ∃ (core : Core) (P : Potential) (f : GF) (Y : Arr), core.compatible P.space f.space = false ∧
    P.evaluate core f = .ok Y ∧ Y.e 0 0 = 1 := by
  refine ⟨⟨fun _ => 1, fun s t => s == t, fun _ _ => .zero 1 1, fun _ _ => eye 1⟩,
    ⟨.nonlocal ⟨false, 1, 1, fun _ _ => 1, .NO_TRANSPOSE⟩, 1, 0, ⟨3, 1, fun _ _ => 0⟩⟩,
    ⟨1, 1, some ⟨false, 1, 1, false, fun _ _ => 1⟩, none, true⟩, _, rfl, rfl, ?_⟩
  show ∑ k ∈ Finset.range 1, modeEntry .NO_TRANSPOSE (fun _ _ => (1 : ℂ)) 0 k * 1 = 1
  rw [Finset.sum_range_one]
  show (1 : ℂ) * 1 = 1
  norm_num

/-- The hypotheses of `C90_algebra` can be met: two operators with three components at two points. -/
theorem C90_example : ∃ (core : Core) (leaves : Nat → Potential) (points : Points) (matrix : Nat → Nat → Nat → ℂ), points.dim ≠ 0 ∧
    (∀ i, IsAssembled core (leaves i) 3 2 points (matrix i)) ∧ (∀ i j, core.compatible (leaves i).space (leaves j).space = true) ∧
    (PExpr.sub (.smul ⟨Complex.I, true⟩ (.leaf 0)) (.neg (.leaf 1))).Typed ∧
    ∀ x, (PExpr.sub (.smul ⟨Complex.I, true⟩ (.leaf 0)) (.neg (.leaf 1))).value x = Complex.I * x 0 + x 1 := by
  refine ⟨⟨fun _ => 2, fun s t => s == t, fun _ _ => .zero 2 2, fun _ _ => eye 2⟩,
    fun k => ⟨.nonlocal ⟨true, 6, 2, fun i j => Complex.I * (k + i + j : ℂ), .NO_TRANSPOSE⟩, 3, 0, ⟨3, 2, fun i j => i + j⟩⟩,
    ⟨3, 2, fun i j => i + j⟩, fun k i j => Complex.I * (k + i + j : ℂ), by decide, fun i => ?_, fun _ _ => rfl, ?_, fun x => ?_⟩
  · exact ⟨rfl, rfl, ⟨rfl, rfl, fun _ _ _ _ => rfl⟩, true, rfl, fun h => (by cases h)⟩
  · exact ⟨⟨fun h => (by cases h), trivial⟩, trivial⟩
  · show Complex.I * x 0 - -x 1 = _
    ring

/-! ### The direct solver -/

/-- `lu` returns a function `f` of the operator's domain that solves `A f = b`: the projections of the image of `f` are those of `b`,
and so are its coefficients, for every operator that is not assembled as a sparse matrix and whose matrix is nonsingular. -/
theorem C91_lu_partial (core : Core) (nodes : Nat → Node) (hc : Constructed core nodes) (hs : core.Sound nodes)
    (hi : core.Invertible nodes) (hp : ∀ k t, (core.form k t).Plain)
    (hn : ∀ i a, (nodes i).kind ≠ .transpose a ∧ (nodes i).kind ≠ .adjoint a ∧ ∀ b, (nodes i).kind ≠ .dualProduct a b)
    (τ : Nat → Nat) (i : Nat) (e : Expr) (he : Formula core nodes τ i e) (n : Nat) (h1 : 1 ≤ n)
    (hdom : core.dofs (nodes i).domain = n) (hdual : core.dofs (nodes i).dualToRange = n) (hrange : core.dofs (nodes i).range = n)
    (W : Matrix (Fin n) (Fin n) ℂ) (hW : Denotes e n n W) (hdet : W.det ≠ 0) (b : GF) (a : AFun)
    (hb : Represents core b a (nodes i).dualToRange) (ha : a.space = (nodes i).range) (factors : Option Arr)
    (hf : ∀ F, factors = some F → F.rows = n ∧ F.cols = n ∧ ∀ (j k : Fin n), F.e j k = W j k)
    (hsp : factors = none → ∀ A, e.eval ≠ .ok (.sparse A)) :
    let A : Operand := ⟨(nodes i).domain, (nodes i).range, (nodes i).dualToRange, e.eval, (strongFormula core (nodes i) e).eval⟩
    ∃ f u c, lu core A b factors = .ok f ∧ f.space = (nodes i).domain ∧ (f.coefficients core).1 = .ok c ∧ VecIs c n u ∧
      (∀ k : Fin n, ∑ j : Fin n, W k j * u j = proj core a (nodes i).dualToRange k) ∧
      ∀ g, IsImage core W (nodes i).range (nodes i).dualToRange u g → ∀ k < n, g k = a.value k := by
  intro A
  obtain ⟨hwf, -⟩ := formula_sized hc hs hi he
  have hpl := formula_plain hp hn he
  obtain ⟨hb1, -, bp, hb4, hb5⟩ := hb
  rw [hdual] at hb5
  -- solving with any array that holds the matrix
  have solve : ∀ F : Arr, F.rows = n → F.cols = n → (∀ (j k : Fin n), F.e j k = W j k) → ∃ u sol, denseSolve F bp = .ok sol ∧
      VecIs sol n u ∧ ∀ k : Fin n, ∑ j : Fin n, W k j * u j = bp.e k 0 := by
    intro F hr hcl hF
    obtain ⟨t, r, m, z, ent⟩ := F
    dsimp only at hr hcl hF
    subst hr
    subst hcl
    have hM : toM m m ent = W := by
      ext j k
      exact hF j k
    refine ⟨fun k => if h : k < m then (W⁻¹.mulVec fun q : Fin m => bp.e q 0) ⟨k, h⟩ else 0,
      ⟨bp.twoD, m, bp.cols, z || bp.complex, fun i j => if h : i < m then ((toM m m ent)⁻¹.mulVec fun k : Fin m => bp.e k j) ⟨i, h⟩ else 0⟩,
      ?_, ⟨hb5.1, rfl, hb5.2.2.1, fun k hk => ?_⟩, fun k => ?_⟩
    · unfold denseSolve
      rw [if_neg (by
        rintro (h | h)
        · exact h rfl
        · exact h hb5.2.1), if_neg (by rw [hM]; exact hdet)]
    · show (if h : k < m then ((toM m m ent)⁻¹.mulVec fun q : Fin m => bp.e q 0) ⟨k, h⟩ else 0) = _
      rw [hM]
    · have := congrFun (show W.mulVec (W⁻¹.mulVec fun q : Fin m => bp.e q 0) = fun q : Fin m => bp.e q 0 by
        rw [Matrix.mulVec_mulVec, Matrix.mul_nonsing_inv _ (isUnit_iff_ne_zero.mpr hdet), Matrix.one_mulVec]) k
      rw [← this]
      refine Finset.sum_congr rfl fun j _ => ?_
      dsimp only
      rw [dif_pos j.2]
  have finish : ∀ u sol, VecIs sol n u → (∀ k : Fin n, ∑ j : Fin n, W k j * u j = bp.e k 0) →
      lu core A b factors = GF.new A.domain none none (some sol) none →
      ∃ f u c, lu core A b factors = .ok f ∧ f.space = (nodes i).domain ∧ (f.coefficients core).1 = .ok c ∧ VecIs c n u ∧
      (∀ k : Fin n, ∑ j : Fin n, W k j * u j = proj core a (nodes i).dualToRange k) ∧
      ∀ g, IsImage core W (nodes i).range (nodes i).dualToRange u g → ∀ k < n, g k = a.value k := by
    intro u sol hv hw hl
    have hnew : GF.new A.domain none none (some sol) none = .ok ⟨(nodes i).domain, (nodes i).domain, some sol, none, true⟩ := by
      unfold GF.new
      rw [if_neg (by simp)]
      show GF.setCoefficients _ sol = _
      unfold GF.setCoefficients
      rw [if_neg (by rw [hv.1]; decide)]
      rfl
    have hproj : ∀ k : Fin n, ∑ j : Fin n, W k j * u j = proj core a (nodes i).dualToRange k := fun k => by
      rw [hw k, hb5.2.2.2 k k.2]
    refine ⟨_, u, sol, hl.trans hnew, rfl, rfl, hv, hproj, fun g hg k hk => ?_⟩
    obtain ⟨X, -, hX2⟩ := inverse_mass (hs.massRows (nodes i).range (nodes i).dualToRange) (hs.massCols _ _) (hi.1 i).1
    have hle : core.dofs (nodes i).range ≤ core.dofs (nodes i).dualToRange := by rw [hrange, hdual]
    obtain ⟨s, v⟩ := a
    dsimp only at ha ⊢
    subst ha
    have hk' : k < core.dofs (nodes i).range := by rw [hrange]; exact hk
    rw [proj_inverse (hX2 hle) g ⟨k, hk'⟩, proj_inverse (hX2 hle) v ⟨k, hk'⟩]
    refine Finset.sum_congr rfl fun p _ => ?_
    have hp' : (p : Nat) < n := by rw [← hdual]; exact p.2
    have := hg ⟨p, hp'⟩
    rw [hproj ⟨p, hp'⟩] at this
    have e2 : proj core ⟨(nodes i).range, g⟩ (nodes i).dualToRange p = proj core ⟨(nodes i).range, v⟩ (nodes i).dualToRange p := this
    rw [e2]
  cases hfac : factors with
  | some F =>
    obtain ⟨f1, f2, f3⟩ := hf F hfac
    obtain ⟨u, sol, s1, s2, s3⟩ := solve F f1 f2 f3
    rw [← hfac]
    refine finish u sol s2 s3 ?_
    rw [hfac]
    unfold lu
    dsimp only
    rw [hb4]
    show (do let sol ← denseSolve F bp; GF.new A.domain none none (some sol) none) = _
    rw [s1]
    rfl
  | none =>
    obtain ⟨op, y, o1, o2, o3, o4, o5⟩ := C81_as_matrix e hwf (plain_permitted hpl) h1 W hW
    obtain ⟨u, sol, s1, s2, s3⟩ := solve y o3 o4 o5
    rw [← hfac]
    refine finish u sol s2 s3 ?_
    rw [hfac]
    have hA : A.weak = .ok op := o1
    have hsol : solveOperator op bp = denseSolve y bp := by
      have hns := hsp hfac
      unfold solveOperator
      split
      · rename_i B
        exact absurd o1 (hns B)
      · rw [o2]; rfl
    unfold lu
    dsimp only
    rw [hA, hb4]
    show (do let sol ← solveOperator op bp; GF.new A.domain none none (some sol) none) = _
    rw [hsol, s1]
    rfl

/-- The hypotheses of `C91_lu_partial` can be met: the operator with the matrix `I` and the right-hand side with the coefficients `1, 1`. -/
theorem C91_example : ∃ W : Matrix (Fin 2) (Fin 2) ℂ, Denotes (exampleCore.form 1 0) 2 2 W ∧ W.det ≠ 0 ∧
    Formula exampleCore exampleNodes (fun _ => 0) 4 (exampleCore.form 1 0) ∧
    (∀ i a, (exampleNodes i).kind ≠ .transpose a ∧ (exampleNodes i).kind ≠ .adjoint a ∧ ∀ b, (exampleNodes i).kind ≠ .dualProduct a b) ∧
    Represents exampleCore ⟨0, 0, some ⟨false, 2, 1, false, fun _ _ => 1⟩, none, true⟩ ⟨0, fun _ => 1⟩ 0 ∧
    (∀ A, (exampleCore.form 1 0).eval ≠ .ok (.sparse A)) := by
  have hW := Denotes.dense (Arr.mk true 2 2 false fun i j => if i = j then (if 1 = 0 then ((0 : Nat) : ℂ) else 1) else 0)
  have hrep : Represents exampleCore ⟨0, 0, some ⟨false, 2, 1, false, fun _ _ => 1⟩, none, true⟩ ⟨0, fun _ => 1⟩ 0 := by
    obtain ⟨f, h1, h2⟩ := (C88_right_hand_sides exampleCore example_functions.1 0 0 none fun _ => 1).1 ⟨false, 2, 1, false, fun _ _ => 1⟩
      ⟨rfl, rfl, rfl, fun _ _ => rfl⟩
    cases h1
    exact h2
  refine ⟨_, hW, ?_, .elementary rfl, fun i a => ?_, hrep, fun A h => ?_⟩
  · rw [Matrix.det_fin_two]
    simp [toM]
  · unfold exampleNodes
    split
    · exact ⟨fun h => (by cases h), fun h => (by cases h), fun _ h => (by cases h)⟩
    · split
      · exact ⟨fun h => (by cases h), fun h => (by cases h), fun _ h => (by cases h)⟩
      · split <;> exact ⟨fun h => (by cases h), fun h => (by cases h), fun _ h => (by cases h)⟩
  · cases Except.ok.inj h

/-- Operators assembled as sparse matrices are refused. -/
theorem C91_counterexample_sparse (core : Core) (A : Operand) (B : Arr) (hA : A.weak = .ok (.sparse B)) (b : GF) :
    ∃ x, lu core A b none = .error x := by
  unfold lu
  dsimp only
  rw [hA]
  cases (b.projections core (some A.dualToRange)).1 with
  | error x => exact ⟨x, rfl⟩
  | ok v => exact ⟨_, rfl⟩

/-- `compute_lu_factors` fails for every operator. -/
theorem C91_counterexample_factors (A : Operand) : ∃ x, computeLuFactors A = .error x := by
  unfold computeLuFactors
  cases A.weak with
  | error x => exact ⟨x, rfl⟩
  | ok op => exact ⟨_, rfl⟩

end

end Verif.PyOp
