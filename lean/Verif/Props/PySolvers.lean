import Verif.Lemmas.PySolvers
import Verif.Props.PyBlockedBoundary
import Verif.Props.PyGridFunction
/-
C88: the iterative solvers of the Python layer.
-/
namespace Verif.PyOp
noncomputable section

/-- `gmres` and `cg` for boundary operators.  Whatever solver SciPy uses, if it keeps its promise the result is a function `f` of the
domain of the operator, and if `info` is 0 the projections (without strong form) or coefficients (with strong form) of `A f` are those
of `b` up to the relative tolerance. -/
theorem C88_boundary (core : Core) (nodes : Nat → Node) (hc : Constructed core nodes) (hs : core.Sound nodes)
    (hi : core.Invertible nodes) (hp : ∀ k t, (core.form k t).Plain)
    (hn : ∀ i a, (nodes i).kind ≠ .transpose a ∧ (nodes i).kind ≠ .adjoint a ∧ ∀ b, (nodes i).kind ≠ .dualProduct a b)
    (τ : Nat → Nat) (i : Nat) (e : Expr) (he : Formula core nodes τ i e)
    (W : Matrix (Fin (core.dofs (nodes i).dualToRange)) (Fin (core.dofs (nodes i).domain)) ℂ) (hW : Denotes e _ _ W)
    (solver : Solver) (tol : ℝ) (hr : Reliable tol solver) (b : GF) (a : AFun) (hb : Represents core b a (nodes i).dualToRange)
    (o : Options) (ans : Answer) :
    let A : Operand := ⟨(nodes i).domain, (nodes i).range, (nodes i).dualToRange, e.eval, (strongFormula core (nodes i) e).eval⟩
    (gmres core solver (.boundary A) (.function b) o = .ok ans ∨ cg core solver (.boundary A) (.function b) o = .ok ans) →
    ∃ r u c, ans = .function r ∧ r.fn.space = (nodes i).domain ∧ (r.fn.coefficients core).1 = .ok c ∧
      VecIs c (core.dofs (nodes i).domain) u ∧
      (r.info = 0 → ∀ g, IsImage core W (nodes i).range (nodes i).dualToRange u g →
        (o.strong = false → Within tol (core.dofs (nodes i).dualToRange)
          (proj core ⟨(nodes i).range, g⟩ (nodes i).dualToRange) (proj core a (nodes i).dualToRange)) ∧
        (o.strong = true → core.dofs (nodes i).range ≤ core.dofs (nodes i).dualToRange →
          Within tol (core.dofs (nodes i).range) g a.value)) := by
  intro A h
  have h' : ∃ z r, solveSingle core z solver A b o = .ok r ∧ ans = .function r := by
    rcases h with h | h
    · unfold gmres at h
      dsimp only at h
      cases hh : solveSingle core false solver A b o with
      | error x => rw [hh] at h; cases h
      | ok r => rw [hh] at h; exact ⟨_, r, hh, (Except.ok.inj h).symm⟩
    · unfold cg at h
      dsimp only at h
      cases hh : solveSingle core true solver A b o with
      | error x => rw [hh] at h; cases h
      | ok r => rw [hh] at h; exact ⟨_, r, hh, (Except.ok.inj h).symm⟩
  obtain ⟨z, r, hz, rfl⟩ := h'
  obtain ⟨p, s, cn, f, h1, h2, -, h4, rfl⟩ := solveSingle_ok hz
  obtain ⟨hwf, -⟩ := formula_sized hc hs hi he
  have hpl := formula_plain hp hn he
  obtain ⟨hb1, ⟨bc, hb2, hb3⟩, bp, hb4, hb5⟩ := hb
  -- what holds for any matrix the operator acts as
  have finish : ∀ {m : Nat} (M : Matrix (Fin m) (Fin (core.dofs (nodes i).domain)) ℂ), Acts p.1 M → p.2.twoD = false →
      VecIs s.x.ravel (core.dofs (nodes i).domain) (fun k => s.x.e k 0) ∧ f = ⟨(nodes i).domain, (nodes i).domain, some s.x.ravel, none, true⟩ ∧
      (s.info = 0 → Within tol m (fun k => ∑ q ∈ Finset.range (core.dofs (nodes i).domain), tableOf M k q * s.x.e q 0)
        fun k => p.2.e k 0) := by
    intro m M hM hv
    obtain ⟨q1, q2, q3, q4⟩ := scipy_reliable hr hM.1
      (fun x hx hx' => (hM.2 x hx (by omega) (fun _ => hx')).2.1 hx') hv h2
    refine ⟨ravel_vec q3, ?_, q4⟩
    have : GF.new A.domain none none (some s.x.ravel) none = .ok ⟨(nodes i).domain, (nodes i).domain, some s.x.ravel, none, true⟩ := rfl
    rw [this] at h4
    exact (Except.ok.inj h4).symm
  cases ho : o.strong with
  | false =>
    rw [ho] at h1
    unfold system at h1
    rw [if_neg (by simp)] at h1
    obtain ⟨op, hop, h1⟩ := Res.bind_ok h1
    obtain ⟨v, hv, h1⟩ := Res.bind_ok h1
    obtain ⟨op', hop', hact⟩ := C81_expressions e hwf hpl W hW
    have hop : e.eval = .ok op := hop
    rw [hop'] at hop
    cases hop
    rw [hb4] at hv
    cases hv
    cases h1
    obtain ⟨q1, rfl, q3⟩ := finish W hact hb5.1
    refine ⟨_, fun k => s.x.e k 0, s.x.ravel, rfl, rfl, rfl, q1, fun hinf g hg => ⟨fun _ => ?_, fun hh => (by cases hh)⟩⟩
    refine within_congr (q3 hinf) (fun k hk => ?_) (fun k hk => hb5.2.2.2 k hk)
    rw [sum_tableOf W ⟨k, hk⟩ fun q => s.x.e q 0]
    exact (hg ⟨k, hk⟩).symm
  | true =>
    rw [ho] at h1
    unfold system at h1
    rw [if_pos rfl] at h1
    split at h1
    · cases h1
    rename_i hcomp
    rw [not_not] at hcomp
    obtain ⟨op, hop, h1⟩ := Res.bind_ok h1
    obtain ⟨v, hv, h1⟩ := Res.bind_ok h1
    have hfull := (hi.1 i).1
    obtain ⟨X, hX1, hX2⟩ := inverse_mass (hs.massRows (nodes i).range (nodes i).dualToRange) (hs.massCols _ _) hfull
    obtain ⟨op', hop', hact⟩ := C81_expressions (strongFormula core (nodes i) e)
      ⟨⟨hs.massTyped _ _, hfull, (by rw [hs.massRows]; exact hi.2 _), (by rw [hs.massCols]; exact hi.2 _)⟩, hwf⟩
      ⟨⟨fun _ h => (by cases h), fun _ h => (by cases h)⟩, ⟨fun _ h => (by cases h), fun _ h => (by cases h)⟩, hpl⟩ (X * W) (.mul hX1 hW)
    have hop : (strongFormula core (nodes i) e).eval = .ok op := hop
    rw [hop'] at hop
    cases hop
    rw [hb2] at hv
    cases hv
    cases h1
    obtain ⟨q1, rfl, q3⟩ := finish (X * W) hact hb3.1
    refine ⟨_, fun k => s.x.e k 0, s.x.ravel, rfl, rfl, rfl, q1, fun hinf g hg => ⟨fun hh => (by cases hh), fun _ hle => ?_⟩⟩
    have hdim : core.dofs (nodes i).range = core.dofs a.space := by
      rw [← hb1]; exact hs.compatible _ _ hcomp
    refine within_congr (q3 hinf) (fun k hk => ?_) (fun k hk => hb3.2.2.2 k (by rw [← hdim]; exact hk))
    rw [sum_tableOf (X * W) ⟨k, hk⟩ fun q => s.x.e q 0, proj_inverse (hX2 hle) g ⟨k, hk⟩]
    have e1 : ∀ p : Fin (core.dofs (nodes i).dualToRange), X ⟨k, hk⟩ p * proj core ⟨(nodes i).range, g⟩ (nodes i).dualToRange p =
        ∑ q, X ⟨k, hk⟩ p * (W p q * s.x.e q 0) := fun p => by rw [hg p, Finset.mul_sum]
    rw [Finset.sum_congr rfl fun p _ => e1 p, Finset.sum_comm]
    refine Finset.sum_congr rfl fun q _ => ?_
    rw [Matrix.mul_apply, Finset.sum_mul]
    exact Finset.sum_congr rfl fun p _ => mul_assoc _ _ _

/-- If SciPy's solver is exact, the result solves `A f = b`, with and without strong form. -/
theorem C88_exact (core : Core) (nodes : Nat → Node) (hc : Constructed core nodes) (hs : core.Sound nodes)
    (hi : core.Invertible nodes) (hp : ∀ k t, (core.form k t).Plain)
    (hn : ∀ i a, (nodes i).kind ≠ .transpose a ∧ (nodes i).kind ≠ .adjoint a ∧ ∀ b, (nodes i).kind ≠ .dualProduct a b)
    (τ : Nat → Nat) (i : Nat) (e : Expr) (he : Formula core nodes τ i e)
    (W : Matrix (Fin (core.dofs (nodes i).dualToRange)) (Fin (core.dofs (nodes i).domain)) ℂ) (hW : Denotes e _ _ W)
    (solver : Solver) (hr : Reliable 0 solver) (b : GF) (a : AFun) (hb : Represents core b a (nodes i).dualToRange)
    (ha : a.space = (nodes i).range) (hd : core.dofs (nodes i).range ≤ core.dofs (nodes i).dualToRange) (o : Options) (ans : Answer) :
    let A : Operand := ⟨(nodes i).domain, (nodes i).range, (nodes i).dualToRange, e.eval, (strongFormula core (nodes i) e).eval⟩
    (gmres core solver (.boundary A) (.function b) o = .ok ans ∨ cg core solver (.boundary A) (.function b) o = .ok ans) →
    ∃ r u c, ans = .function r ∧ r.fn.space = (nodes i).domain ∧ (r.fn.coefficients core).1 = .ok c ∧
      VecIs c (core.dofs (nodes i).domain) u ∧
      (r.info = 0 → ∀ g, IsImage core W (nodes i).range (nodes i).dualToRange u g → ∀ k < core.dofs (nodes i).range, g k = a.value k) := by
  intro A h
  obtain ⟨r, u, c, h1, h2, h3, h4, h5⟩ := C88_boundary core nodes hc hs hi hp hn τ i e he W hW solver 0 hr b a hb o ans h
  refine ⟨r, u, c, h1, h2, h3, h4, fun hinf g hg k hk => ?_⟩
  obtain ⟨h6, h7⟩ := h5 hinf g hg
  cases ho : o.strong with
  | true => exact within_zero (h7 ho hd) k hk
  | false =>
    have h8 := within_zero (h6 ho)
    obtain ⟨X, -, hX2⟩ := inverse_mass (hs.massRows (nodes i).range (nodes i).dualToRange) (hs.massCols _ _) (hi.1 i).1
    obtain ⟨s, v⟩ := a
    dsimp only at ha ⊢
    subst ha
    rw [proj_inverse (hX2 hd) g ⟨k, hk⟩, proj_inverse (hX2 hd) v ⟨k, hk⟩]
    exact Finset.sum_congr rfl fun p _ => by rw [h8 p p.isLt]

/-- Arguments that are refused with ValueError: a first argument that is no operator, a right-hand side that is no grid function, `cg`
for blocked operators, the strong form for a right-hand side whose space is not compatible with the range, and operators that are not
square. -/
theorem C88_refused (core : Core) (solver : Solver) (o : Options) :
    (∀ b, gmres core solver .other b o = .error .ValueError ∧ cg core solver .other b o = .error .ValueError) ∧
    (∀ A b, (∀ f, b ≠ .function f) → gmres core solver (.boundary A) b o = .error .ValueError ∧
      cg core solver (.boundary A) b o = .error .ValueError) ∧
    (∀ A b, cg core solver (.blocked A) b o = .error .ValueError) ∧
    (∀ A b, o.strong = true → ¬ core.compatible A.range b.space = true →
      gmres core solver (.boundary A) (.function b) o = .error .ValueError ∧
      cg core solver (.boundary A) (.function b) o = .error .ValueError) ∧
    ∀ A b op v, system core A b o.strong = .ok (op, v) → op.shape.1 ≠ op.shape.2 →
      gmres core solver (.boundary A) (.function b) o = .error .ValueError ∧
      cg core solver (.boundary A) (.function b) o = .error .ValueError := by
  refine ⟨fun b => ⟨by cases b <;> rfl, by cases b <;> rfl⟩, fun A b hb => ?_, fun A b => (by cases b <;> rfl), fun A b ho hc => ?_,
    fun A b op v hv hs => ?_⟩
  · cases b with
    | function f => exact absurd rfl (hb f)
    | list fs => exact ⟨rfl, rfl⟩
    | other => exact ⟨rfl, rfl⟩
  · have key : ∀ z, solveSingle core z solver A b o = .error .ValueError := by
      intro z
      unfold solveSingle system
      rw [if_pos ho, if_pos hc]
      rfl
    exact ⟨by unfold gmres; dsimp only; rw [key]; rfl, by unfold cg; dsimp only; rw [key]; rfl⟩
  · have key : ∀ z, solveSingle core z solver A b o = .error .ValueError := by
      intro z
      unfold solveSingle
      rw [hv, ok_bind]
      unfold scipy
      rw [if_pos hs]
      rfl
    exact ⟨by unfold gmres; dsimp only; rw [key]; rfl, by unfold cg; dsimp only; rw [key]; rfl⟩

/-- The other components of the result: `info` is SciPy's, the iteration count is the number of calls of the callback, the residuals are
one number for each call, for `gmres` the norm of what the solver passes and for `cg` the norm of `b - A x`.  Components that were not
asked for are absent. -/
theorem C88_iterations (core : Core) (z : Bool) (solver : Solver) (A : Operand) (b : GF) (o : Options) (r : Solution GF)
    (h : solveSingle core z solver A b o = .ok r) : ∃ op v s, system core A b o.strong = .ok (op, v) ∧
      scipy solver op.shape op.matvec v = .ok s ∧ r.info = s.info ∧ r.count = (if o.count then some s.calls.length else none) ∧
      (o.residuals = false → r.residuals = none) ∧
      (o.residuals = true → ∃ L, r.residuals = some L ∧ (z = false → L = s.calls.map Arr.norm) ∧
        (z = true → ∀ {m n : Nat} (M : Matrix (Fin m) (Fin n) ℂ), Acts op M → VecOf v m → (∀ x ∈ s.calls, VecOf x n) →
          List.Forall₂ (fun (x : Arr) ρ => ρ = Real.sqrt (∑ k : Fin m, ‖v.e k 0 - ∑ q, M k q * x.e q 0‖ ^ 2)) s.calls L)) := by
  obtain ⟨⟨op, v⟩, s, c, f, h1, h2, h3, -, rfl⟩ := solveSingle_ok h
  dsimp only at h2 h3
  refine ⟨op, v, s, h1, h2, rfl, ?_, fun ho => ?_, fun ho => ?_⟩
  · show (if o.count then some c.count else none) = _
    rw [fold_count _ _ _ h3, Nat.zero_add]
  · show (if o.residuals then _ else none) = _
    rw [ho]
    rfl
  · refine ⟨c.residuals, ?_, fun hz => ?_, fun hz m n M hM hv hx => ?_⟩
    · show (if o.residuals then _ else none) = _
      rw [ho]
      rfl
    · rw [hz, ho] at h3
      simp only [Bool.false_eq_true, if_false] at h3
      rw [fold_gmres] at h3
      have := Except.ok.inj h3
      rw [← this, List.nil_append]
    · rw [hz, ho] at h3
      simp only [if_true] at h3
      obtain ⟨L, hL, h4⟩ := fold_cg _ _ _ h3
      rw [List.nil_append] at hL
      rw [hL]
      refine List.Forall₂.imp ?_ (forall₂_mem h4)
      rintro x ρ ⟨hxm, y, w, hy, hw, rfl⟩
      exact cg_residual hM hv (hx x hxm) hy hw

/-- `gmres` for blocked operators: the result is a list of functions of the domain spaces, and if `info` is 0 the projections (without
strong form) or coefficients (with strong form) of the images are those of the right-hand sides up to the relative tolerance, for all
rows together. -/
theorem C88_blocked (core : Core) (comp : Components) (nodes : Nat → BNode) (hc : BConstructed comp nodes) (hs : BlockedSound core comp)
    (i : Nat) (e : BExpr) (he : BFormula core comp nodes i e) (rs ds cs : List Space) (h1 : (nodes i).range = rs.map some)
    (h2 : (nodes i).dualToRange = ds.map some) (h3 : (nodes i).domain = cs.map some)
    (W : Matrix (Fin (ds.map core.dofs).sum) (Fin (cs.map core.dofs).sum) ℂ)
    (hW : BDenotes e (ds.map core.dofs) (cs.map core.dofs) W) (solver : Solver) (tol : ℝ) (hr : Reliable tol solver) (bs : List GF)
    (as : Nat → AFun) (hl : bs.length = rs.length)
    (hb : ∀ (a : Nat) f, bs[a]? = some f → Represents core f (as a) (ds.getD a 0)) (o : Options)
    (hsp : o.strong = true → ∀ a < rs.length, (as a).space = rs.getD a 0) (A : BOperand) (hA1 : A.node = nodes i)
    (hA2 : o.strong = false → A.weak = e.eval) (hA3 : o.strong = true → A.strong = (blockedStrongFormula core (nodes i) e).eval)
    (ans : Answer) (h : gmres core solver (.blocked A) (.list bs) o = .ok ans) :
    ∃ r u, ans = .list r ∧ r.fn.length = cs.length ∧ (∀ (j : Nat) f, r.fn[j]? = some f → f.space = cs.getD j 0 ∧
        ∃ c, (f.coefficients core).1 = .ok c ∧ VecIs c (core.dofs (cs.getD j 0)) (u j)) ∧
      (r.info = 0 → ∀ g, IsBlockedImage core rs ds cs (tableOf W) u g →
        (o.strong = false → ListWithin tol (ds.map core.dofs) (fun a => proj core ⟨rs.getD a 0, g a⟩ (ds.getD a 0))
          fun a => proj core (as a) (ds.getD a 0)) ∧
        (o.strong = true → (∀ a < rs.length, core.dofs (rs.getD a 0) ≤ core.dofs (ds.getD a 0)) →
          ListWithin tol (rs.map core.dofs) g fun a => (as a).value)) := by
  have h' : ∃ r, solveBlocked core solver A bs o = .ok r ∧ ans = .list r := by
    unfold gmres at h
    dsimp only at h
    cases hh : solveBlocked core solver A bs o with
    | error x => rw [hh] at h; cases h
    | ok r => rw [hh] at h; exact ⟨r, rfl, (Except.ok.inj h).symm⟩
  obtain ⟨r, hz, rfl⟩ := h'
  obtain ⟨p, s, cn, cs', gs, q1, q2, -, q4, q5, rfl⟩ := solveBlocked_ok hz
  rw [hA1, h3, allSpaces_some] at q4
  cases q4
  obtain ⟨rs', ds', cs', hsd⟩ := constructed_spaced hc i
  have hi : Function.Injective (some : Space → Option Space) := Option.some_injective _
  obtain rfl : rs' = rs := List.map_injective_iff.mpr hi (hsd.range.symm.trans h1)
  obtain rfl : ds' = ds := List.map_injective_iff.mpr hi (hsd.dual.symm.trans h2)
  obtain rfl : cs' = cs := List.map_injective_iff.mpr hi (hsd.domain.symm.trans h3)
  have hll := hsd.len
  have finish : ∀ {dims : List Nat} (M : Matrix (Fin dims.sum) (Fin (cs'.map core.dofs).sum) ℂ), BActs p.1 M → p.2.twoD = false →
      gs.length = cs'.length ∧ (∀ (j : Nat) g, gs[j]? = some g → g.space = cs'.getD j 0 ∧ ∃ c, (g.coefficients core).1 = .ok c ∧
        VecIs c (core.dofs (cs'.getD j 0)) fun q => s.x.e (offset (cs'.map core.dofs) j + q) 0) ∧
      (s.info = 0 → Within tol dims.sum (fun k => ∑ q ∈ Finset.range (cs'.map core.dofs).sum, tableOf M k q * s.x.e q 0)
        fun k => p.2.e k 0) := by
    intro dims M hM hv
    obtain ⟨-, -, t3, t4⟩ := scipy_reliable hr hM.1
      (fun x hx hx' => (hM.2 x hx (by omega) (fun _ => hx')).2.1 hx') hv q2
    have hrv := ravel_vec t3
    obtain ⟨gs', g1, g2, g3⟩ := listFromCoefficients_ok (core := core) (cs := cs') hrv.2.1
    rw [q5] at g1
    cases g1
    refine ⟨g2, fun j g hg => ?_, t4⟩
    obtain ⟨g4, c, g5, g6⟩ := g3 j g hg
    have hj : j < cs'.length := by
      by_contra hh
      rw [List.getElem?_eq_none (by omega)] at hg
      cases hg
    exact ⟨g4, c, g5, g6.congr fun q hq => hrv.2.2.2 _ (offset_le _ (by rw [List.length_map]; exact hj)
      (by rw [getD_map_dofs _ _ hj]; exact hq))⟩
  -- the product with the weak form, block by block
  have blocks : ∀ a k, ∑ t ∈ Finset.range (cs'.map core.dofs).sum, tableOf W (offset (ds'.map core.dofs) a + k) t * s.x.e t 0 =
      ∑ j ∈ Finset.range cs'.length, ∑ q ∈ Finset.range (core.dofs (cs'.getD j 0)),
        tableOf W (offset (ds'.map core.dofs) a + k) (offset (cs'.map core.dofs) j + q) * s.x.e (offset (cs'.map core.dofs) j + q) 0 := by
    intro a k
    have := sum_blocks (fun t => tableOf W (offset (ds'.map core.dofs) a + k) t * s.x.e t 0) (cs'.map core.dofs) 0
    simp only [Nat.zero_add] at this
    rw [this, List.length_map]
    refine Finset.sum_congr rfl fun j hj => ?_
    rw [getD_map_dofs _ _ (Finset.mem_range.mp hj)]
  cases ho : o.strong with
  | false =>
    rw [ho] at q1
    unfold blockedSystem at q1
    rw [if_neg (by simp), hA2 ho, hA1, h2, allSpaces_some] at q1
    obtain ⟨op, hop, q1⟩ := Res.bind_ok q1
    obtain ⟨ds'', hds, q1⟩ := Res.bind_ok q1
    cases hds
    obtain ⟨v, hv, q1⟩ := Res.bind_ok q1
    obtain ⟨op', hop', hact⟩ := bdenotes_brep hW
    rw [hop'] at hop
    cases hop
    cases q1
    obtain ⟨v1, v2⟩ := projections_vec (as := as) (hl.trans hll) (fun a f hf => (hb a f hf).2.2) hv
    obtain ⟨t1, t2, t3⟩ := finish W hact.acts v1.1
    refine ⟨_, fun j q => s.x.e (offset (cs'.map core.dofs) j + q) 0, rfl, t1, t2, fun hinf g hg => ⟨fun _ => ?_, fun hh => (by cases hh)⟩⟩
    refine listWithin_congr (listWithin_of (t3 hinf)) (fun a ha k hk => ?_) (fun a ha k hk => ?_)
    · rw [List.length_map] at ha
      rw [getD_map_dofs _ _ ha] at hk
      rw [hg a (by omega) k hk, blocks]
    · rw [List.length_map] at ha
      rw [getD_map_dofs _ _ ha] at hk
      exact v2 a ha k hk
  | true =>
    rw [ho] at q1
    unfold blockedSystem at q1
    rw [if_pos rfl, hA3 ho] at q1
    obtain ⟨bc, hbc, q1⟩ := Res.bind_ok q1
    obtain ⟨v, hv, q1⟩ := Res.bind_ok q1
    obtain ⟨op, hop, q1⟩ := Res.bind_ok q1
    obtain ⟨F, E, hD, hE, hF⟩ := inverseMasses_exact hs hsd
    obtain ⟨op', hop', hact⟩ := bdenotes_brep (BDenotes.mul hD hW)
    have hop : (blockedStrongFormula core (nodes i) e).eval = .ok op := hop
    have hop' : (blockedStrongFormula core (nodes i) e).eval = .ok op' := hop'
    rw [hop'] at hop
    cases hop
    cases q1
    obtain ⟨v1, v2⟩ := coefficients_vec (rs := rs') (as := as) hl (fun a f hf => by
      have ha : a < rs'.length := by
        by_contra hh
        rw [List.getElem?_eq_none (by omega)] at hf
        cases hf
      obtain ⟨w1, w2, -⟩ := hb a f hf
      rw [hsp ho a ha] at w1 w2
      exact ⟨w1, w2⟩) hbc hv
    obtain ⟨t1, t2, t3⟩ := finish (toM _ _ E * W) hact.acts v1.1
    refine ⟨_, fun j q => s.x.e (offset (cs'.map core.dofs) j + q) 0, rfl, t1, t2, fun hinf g hg => ⟨fun hh => (by cases hh), fun _ hd => ?_⟩⟩
    refine listWithin_congr (listWithin_of (t3 hinf)) (fun a ha k hk => ?_) (fun a ha k hk => ?_)
    · rw [List.length_map] at ha
      rw [getD_map_dofs _ _ ha] at hk
      refine blocked_strong_apply hll hE hF W (fun t => s.x.e t 0) g (fun a ha k hk => ?_) ha (hd a ha) hk
      rw [hg a ha k hk, blocks]
    · rw [List.length_map] at ha
      rw [getD_map_dofs _ _ ha] at hk
      exact v2 a ha k hk

/-- The coefficients of a list of functions, cut again, are the coefficients of the functions. -/
theorem C88_roundtrip (core : Core) (fs : List GF) (ss : List Space) (as : Nat → AFun) (hl : fs.length = ss.length)
    (hf : ∀ (a : Nat) f, fs[a]? = some f → f.space = ss.getD a 0 ∧ ∃ c, (f.coefficients core).1 = .ok c ∧
      VecIs c (core.dofs (ss.getD a 0)) (as a).value) :
    ∃ cs v gs, coefficientsOf core fs = .ok cs ∧ coefficientsOfList core cs = .ok v ∧ v.rows = (ss.map core.dofs).sum ∧
      listFromCoefficients core v ss = .ok gs ∧ gs.length = ss.length ∧
      ∀ (a : Nat) g, gs[a]? = some g → g.space = ss.getD a 0 ∧ ∃ c, (g.coefficients core).1 = .ok c ∧
        VecIs c (core.dofs (ss.getD a 0)) (as a).value := by
  obtain ⟨cs, h1, h2, h3⟩ := mapM_ok_list (f := fun f : GF => ((f.coefficients core).1 >>= fun c => .ok (f.space, c) : Res (Space × Arr))) fs
    (by
      intro f hfm
      obtain ⟨a, ha, rfl⟩ := List.getElem_of_mem hfm
      obtain ⟨-, c, hc, -⟩ := hf a _ (List.getElem?_eq_getElem ha)
      exact ⟨_, by rw [hc]; rfl⟩)
  have h5 : ∀ (a : Nat) p, cs[a]? = some p → a < ss.length ∧ p.1 = ss.getD a 0 ∧ p.2.rows = core.dofs (ss.getD a 0) := by
    intro a p hp
    have ha : a < ss.length := by
      by_contra hh
      rw [List.getElem?_eq_none (by omega)] at hp
      cases hp
    obtain ⟨f, hz, hq⟩ := h3 a p hp
    obtain ⟨c, hc, hq⟩ := Res.bind_ok hq
    have := Except.ok.inj hq
    subst this
    obtain ⟨q1, c', hc', q2⟩ := hf a f hz
    rw [hc] at hc'
    cases hc'
    exact ⟨ha, q1, q2.2.1⟩
  have h6 : (cs.map fun f => core.dofs f.1) = ss.map core.dofs := by
    refine List.ext_getElem (by rw [List.length_map, List.length_map, h2, hl]) fun a ha hb => ?_
    rw [List.getElem_map, List.getElem_map]
    rw [List.length_map] at ha hb
    have := (h5 a cs[a] (List.getElem?_eq_getElem ha)).2.1
    rw [this, List.getD_eq_getElem?_getD, List.getElem?_eq_getElem hb, Option.getD_some]
  have h7 : (cs.map (·.2)).map (·.rows) = ss.map core.dofs := by
    rw [List.map_map]
    refine List.ext_getElem (by rw [List.length_map, List.length_map, h2, hl]) fun a ha hb => ?_
    rw [List.getElem_map, List.getElem_map]
    rw [List.length_map] at ha hb
    have := (h5 a cs[a] (List.getElem?_eq_getElem ha)).2.2
    show (cs[a]).2.rows = _
    rw [this, List.getD_eq_getElem?_getD, List.getElem?_eq_getElem hb, Option.getD_some]
  obtain ⟨v, hv, -⟩ := assignAll_ok (ss.map core.dofs) (cs.map (·.2)) ⟨false, (ss.map core.dofs).sum, 1, cs.any (·.2.complex), fun _ _ => 0⟩ 0 h7
  have hv : coefficientsOfList core cs = .ok v := by
    unfold coefficientsOfList
    rw [h6]
    exact hv
  obtain ⟨v1, v2⟩ := coefficients_vec hl hf h1 hv
  obtain ⟨gs, g1, g2, g3⟩ := listFromCoefficients_ok v1.2.1
  refine ⟨cs, v, gs, h1, hv, v1.2.1, g1, g2, fun a g hg => ?_⟩
  obtain ⟨g4, c, g5, g6⟩ := g3 a g hg
  have ha : a < ss.length := by
    by_contra hh
    rw [List.getElem?_eq_none (by omega)] at hg
    cases hg
  exact ⟨g4, c, g5, g6.congr fun k hk => v2 a ha k hk⟩

/-- Right-hand sides for which the theorems hold: functions given by coefficients, and functions given by projections onto the dual
space of the operator's range. -/
theorem C88_right_hand_sides (core : Core) (hm : core.Masses) (s E : Space) (d : Option Space) (w : Nat → ℂ) :
    (∀ v, VecIs v (core.dofs s) w → ∃ f, GF.new s d none (some v) none = .ok f ∧ Represents core f ⟨s, w⟩ E) ∧
    (∀ p, Nonsingular core s E → VecIs p (core.dofs E) (proj core ⟨s, w⟩ E) →
      ∃ f, GF.new s (some E) none none (some p) = .ok f ∧ Represents core f ⟨s, w⟩ E) := by
  have key : ∀ f, Stands core f ⟨s, w⟩ → (f.primal = true ∨ E = f.dual) → Represents core f ⟨s, w⟩ E := by
    intro f hf hE
    obtain ⟨c, f', h1, h2, -⟩ := coefficients_ok hm hf
    obtain ⟨p, f'', h3, h4, -⟩ := projections_ok hm hf (some E) hE
    exact ⟨hf.space, ⟨c, by rw [h1], h2⟩, p, by rw [h3], h4⟩
  refine ⟨fun v hv => ?_, fun p hn hp => ?_⟩
  · obtain ⟨f, h1, h2⟩ := new_coeffs (core := core) (d := d) hv
    refine ⟨f, h1, key f h2 (Or.inl ?_)⟩
    unfold GF.new GF.setCoefficients at h1
    simp [hv.1] at h1
    rw [← h1]
  · obtain ⟨⟨f, h1, h2⟩, -⟩ := new_duals (core := core) (d := some E) hn hp
    refine ⟨f, h1, key f h2 (Or.inr ?_)⟩
    cases h1
    rfl

/-! ### Examples and counterexamples -/

/-- A solver that finds a solution if there is one. -/
def exactSolver : Solver := fun mv b =>
  open Classical in
  if h : ∃ x : Arr, VecOf x b.rows ∧ ∃ y, mv x = .ok y ∧ Within 0 b.rows (fun k => y.e k 0) fun k => b.e k 0
  then .ok ⟨h.choose, 0, [h.choose]⟩
  else .ok ⟨⟨false, b.rows, 1, false, fun _ _ => 0⟩, 1, []⟩

theorem exactSolver_reliable : Reliable 0 exactSolver := by
  intro n M mv b s hmv hb hs
  unfold exactSolver at hs
  rw [hb.2.1] at hs
  split at hs
  · rename_i h
    cases hs
    exact ⟨h.choose_spec.1, fun _ => h.choose_spec.2⟩
  · cases hs
    exact ⟨⟨rfl, rfl, rfl⟩, fun h => (by cases h)⟩

/-- The identity with the mass matrix `2 I` and the right-hand side with the coefficients `1, 1`: `gmres` returns a function, `info` 0
and the iteration count 1. -/
theorem C88_example : ∃ W : Matrix (Fin 2) (Fin 2) ℂ, Denotes (exampleCore.form 1 0) 2 2 W ∧
    Formula exampleCore exampleNodes (fun _ => 0) 4 (exampleCore.form 1 0) ∧
    Represents exampleCore ⟨0, 0, some ⟨false, 2, 1, false, fun _ _ => 1⟩, none, true⟩ ⟨0, fun _ => 1⟩ 0 ∧
    ∃ r, gmres exampleCore exactSolver
      (.boundary ⟨0, 0, 0, (exampleCore.form 1 0).eval, (strongFormula exampleCore (exampleNodes 4) (exampleCore.form 1 0)).eval⟩)
      (.function ⟨0, 0, some ⟨false, 2, 1, false, fun _ _ => 1⟩, none, true⟩) ⟨false, false, true⟩ = .ok (.function r) ∧
      r.info = 0 ∧ r.count = some 1 := by
  have hW := Denotes.dense (Arr.mk true 2 2 false fun i j => if i = j then (if 1 = 0 then ((0 : Nat) : ℂ) else 1) else 0)
  have hrep : Represents exampleCore ⟨0, 0, some ⟨false, 2, 1, false, fun _ _ => 1⟩, none, true⟩ ⟨0, fun _ => 1⟩ 0 := by
    obtain ⟨f, h1, h2⟩ := (C88_right_hand_sides exampleCore example_functions.1 0 0 none fun _ => 1).1 ⟨false, 2, 1, false, fun _ _ => 1⟩
      ⟨rfl, rfl, rfl, fun _ _ => rfl⟩
    cases h1
    exact h2
  refine ⟨_, hW, .elementary rfl, hrep, ?_⟩
  obtain ⟨op, hop, hact⟩ := C81_expressions (exampleCore.form 1 0) ⟨rfl, fun _ i j => (by
    dsimp only
    split
    · exact star_one ℂ
    · exact star_zero _)⟩ (example_operators.2.2.2.1 1 0) _ hW
  obtain ⟨p, hp, hpv⟩ := hrep.2.2
  have hsys : system exampleCore ⟨0, 0, 0, (exampleCore.form 1 0).eval,
      (strongFormula exampleCore (exampleNodes 4) (exampleCore.form 1 0)).eval⟩
      ⟨0, 0, some ⟨false, 2, 1, false, fun _ _ => 1⟩, none, true⟩ false = .ok (op, p) := by
    unfold system
    rw [if_neg (by simp)]
    dsimp only
    rw [hp]
    have : (exampleCore.form 1 0).eval = .ok op := hop
    rw [this]
    rfl
  have hsol : ∃ x : Arr, VecOf x p.rows ∧ ∃ y, op.matvec x = .ok y ∧ Within 0 p.rows (fun k => y.e k 0) fun k => p.e k 0 := by
    refine ⟨p, ⟨hpv.1, rfl, hpv.2.2.1⟩, ?_⟩
    obtain ⟨y, h1, h2⟩ := (hact.2 p hpv.2.1 (by rw [hpv.2.2.1]) (fun _ => hpv.2.2.1)).2.1 hpv.2.2.1
    refine ⟨y, h1, ?_⟩
    have h3 := congrFun (h2.2.2.2 0 (by rw [hpv.2.2.1]; exact Nat.one_pos))
    have h4 : ∀ k < 2, y.e k 0 = p.e k 0 := by
      intro k hk
      have : y.e k 0 = ∑ q : Fin 2, (if k = (q : Nat) then (1 : ℂ) else 0) * p.e q 0 := h3 ⟨k, hk⟩
      rw [this, Fin.sum_univ_two]
      interval_cases k <;> simp
    unfold Within
    have h5 : p.rows = 2 := hpv.2.1
    rw [h5, Finset.sum_eq_zero]
    · simp
    · intro k hk
      dsimp only
      rw [h4 k (Finset.mem_range.mp hk), sub_self]
      simp
  have hsc : scipy exactSolver op.shape op.matvec p = .ok ⟨hsol.choose, 0, [hsol.choose]⟩ := by
    unfold scipy
    rw [if_neg (by rw [hact.1]; simp), if_neg (by rw [hact.1, hpv.2.1, hpv.2.2.1]; simp [exampleCore])]
    unfold exactSolver
    rw [dif_pos hsol]
  refine ⟨⟨⟨0, 0, some hsol.choose.ravel, none, true⟩, 0, none, some 1⟩, ?_, rfl, rfl⟩
  unfold gmres solveSingle
  dsimp only
  rw [hsys, ok_bind]
  dsimp only
  rw [hsc, ok_bind]
  rfl

/-- In the weak case additional right-hand sides are ignored: the list may be longer than the operator has rows. -/
theorem C88_counterexample_extra (core : Core) (solver : Solver) (A : BOperand) (bs extra : List GF)
    (hl : bs.length = A.node.dualToRange.length) (o : Options) (ho : o.strong = false) :
    gmres core solver (.blocked A) (.list (bs ++ extra)) o = gmres core solver (.blocked A) (.list bs) o := by
  have key : blockedSystem core A (bs ++ extra) false = blockedSystem core A bs false := by
    unfold blockedSystem
    rw [if_neg (by simp), if_neg (by simp)]
    refine congrArg (A.weak >>= ·) (funext fun op => ?_)
    cases hd : allSpaces A.node.dualToRange with
    | error e => rfl
    | ok ds =>
      rw [ok_bind, ok_bind]
      have hlen : ds.length = bs.length := by rw [(mapM_get hd).1, hl]
      unfold projectionsOfFunctions
      have hz : (bs ++ extra).zip ds = bs.zip ds := by
        have : ∀ (l : List GF) (m : List Space), m.length = l.length → (l ++ extra).zip m = l.zip m := by
          intro l
          induction l with
          | nil => intro m h; rw [List.length_eq_zero_iff.mp h]; simp
          | cons a l ih =>
            intro m h
            cases m with
            | nil => simp at h
            | cons d m => rw [List.cons_append, List.zip_cons_cons, List.zip_cons_cons, ih m (by simpa using h)]
        exact this bs ds hlen
      rw [hz]
  unfold gmres solveBlocked
  dsimp only
  rw [ho, key]

/-- Wrong right-hand sides are solved for silently: if `b` is given by its projections onto a space other than the dual space of the
operator's range (for instance onto its own space, the default), the weak form is solved for the projections onto that other space. -/
theorem C88_counterexample_rhs (core : Core) (hm : core.Masses) (A : Operand) (op : Op) (hA : A.weak = .ok op) (s D : Space) (p : Arr)
    (hp : VecOf p (core.dofs D)) (hDE : core.dofs D = core.dofs A.dualToRange) (hne : A.dualToRange ≠ D)
    (hn : Nonsingular core s A.dualToRange) (b : GF) (hb : GF.new s (some D) none none (some p) = .ok b) :
    ∃ v, system core A b false = .ok (op, v) ∧ VecIs v (core.dofs A.dualToRange) fun k => p.e k 0 := by
  obtain ⟨y, g, h1, h2, -⟩ := C85_counterexample_projections core hm s D A.dualToRange p hp hDE hne hn b hb
  refine ⟨y, ?_, h2⟩
  unfold system
  rw [if_neg (by simp), hA, h1]
  rfl

/-- The length of the vector of coefficients is not checked: what is left over is dropped. -/
theorem C88_counterexample_length (core : Core) (n : Nat) (e : Nat → Nat → ℂ) (s : Space) (hn : core.dofs s ≤ n) :
    ∃ g, listFromCoefficients core ⟨false, n, 1, false, e⟩ [s] = .ok [g] ∧ ∃ c, (g.coefficients core).1 = .ok c ∧
      VecIs c (core.dofs s) fun q => e q 0 := by
  refine ⟨_, rfl, _, rfl, rfl, ?_, rfl, fun q _ => ?_⟩
  · show min (0 + core.dofs s) n - min 0 n = _
    omega
  · show e (0 + q) 0 = _
    rw [Nat.zero_add]

end

end Verif.PyOp
