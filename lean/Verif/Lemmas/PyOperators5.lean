import Verif.Lemmas.PyOperators4
import Verif.Props.PyDiscrete
/-
Lemmas for C95: pairs, multitrace operators, Maxwell operators.
-/
namespace Verif.PyOp
noncomputable section

variable {V : Type} [AddCommGroup V] [Module ℝ V] {lib : Library} {S : Surface V} {z : Prop} {l : List Node} {i j : Nat} {d r t s : Space}
  {a b : V →ₗ[ℝ] V →ₗ[ℝ] ℂ}

theorem StandsAs.hasForm (h : StandsAs lib S z l i d r t a) {f : V → V → ℂ}
    (hf : ∀ p < lib.core.dofs t, ∀ q < lib.core.dofs d, a (S.basis t p) (S.basis d q) = f (S.basis t p) (S.basis d q)) :
    HasForm lib l i d r t (S.galerkin lib.core f t d) := by
  refine ⟨h.lt, h.domain, h.range, h.dual, fun τ => ?_⟩
  obtain ⟨e, h1, h2, h3, h4, h5⟩ := h.form τ
  have he : S.galerkin lib.core f t d = S.galerkin lib.core (fun v w => a v w) t d := by
    ext p q; exact (hf p p.2 q q.2).symm
  rw [he]
  obtain ⟨op, ho, hA⟩ := C82_expressions_partial e h2 h3 _ h5
  exact ⟨e, op, h1, h2, h3, h5, ho, hA⟩

theorem HasForm.stands (h : HasForm lib l i d r t (S.galerkin lib.core (fun v w => a v w) t d)) : StandsAs lib S False l i d r t a :=
  ⟨h.lt, h.domain, h.range, h.dual, fun τ => by
    obtain ⟨e, op, h1, h2, h3, h4, -⟩ := h.form τ
    exact ⟨e, h1, h2, h3, fun h => h.elim, h4⟩⟩

theorem HasForm.extend {M : Matrix (Fin (lib.core.dofs t)) (Fin (lib.core.dofs d)) ℂ} (h : HasForm lib l i d r t M) (hl : OpHeap lib l) (new : List Node) :
    HasForm lib (l ++ new) i d r t M := by
  have he := nodesOf_append l new h.lt
  refine ⟨by rw [List.length_append]; have := h.lt; omega, by rw [he]; exact h.domain, by rw [he]; exact h.range, by rw [he]; exact h.dual, fun τ => ?_⟩
  obtain ⟨e, op, h1, h2⟩ := h.form τ
  exact ⟨e, op, formula_mono hl h1 h.lt, h2⟩

theorem compoundForm_eq (core : Core) (wave2 : Option Scalar) (a : V →ₗ[ℝ] V →ₗ[ℝ] ℂ) (s : Space) (v w : V) :
    compoundForm S core wave2 a s v w = S.maue wave2 (fun v w => a (projL S core s v) (projL S core s w)) v w := by
  unfold compoundForm stepForm Surface.maue
  cases wave2 with
  | none => simp [Finset.sum_range_succ, sandwich_apply, waveFactor]
  | some k => simp [Finset.sum_range_succ, sandwich_apply, waveFactor]

theorem maue_congr (wave2 : Option Scalar) {f g : V → V → ℂ} {v w : V} (hc : ∀ c, f (S.curl c v) (S.curl c w) = g (S.curl c v) (S.curl c w))
    (hn : wave2 = none ∨ ∀ c, f (S.normal c v) (S.normal c w) = g (S.normal c v) (S.normal c w)) : S.maue wave2 f v w = S.maue wave2 g v w := by
  unfold Surface.maue
  refine Finset.sum_congr rfl fun c _ => ?_
  rw [hc c]
  rcases hn with rfl | hn
  · simp [waveFactor]
  · rw [hn c]

/-- `slp_and_hyp_impl` after the spaces and the base operator are known. -/
theorem runs_pair (hx : Exact lib S) (hl : OpHeap lib l) (wave2 : Option Scalar) (hc : ∀ c, wave2 = some c → c.complex = false → star c.value = c.value)
    {base : Nat} {r0 : Space} (hb : StandsAs lib S False l base s r0 s a) (d1 r1 t1 d2 r2 : Space) :
    Runs lib (do
      let slp ← project base d1 r1 t1
      let hyp ← hypersingular lib wave2 d2 r2 d2 (.op base) true
      pure (some (slp, hyp, base))) l fun q l' => ∃ slp hyp, q = some (slp, hyp, base) ∧ StandsAs lib S False l' base s r0 s a ∧
        StandsAs lib S False l' slp d1 r1 t1 (projForm S lib.core a s s) ∧ StandsAs lib S False l' hyp d2 r2 d2 (compoundForm S lib.core wave2 a s) := by
  refine (runs_project hx hl hb d1 r1 t1).bind fun slp new hl1 hs => ?_
  have hb1 := hb.extend hl new
  generalize l ++ new = l1 at *
  refine (runs_hyp_op hx hl1 wave2 hc hb1 d2 r2 true).bind fun hyp new2 hl2 hh => ?_
  have hb2 := hb1.extend hl1 new2
  have hs2 := hs.extend hl1 new2
  exact Runs.pure hl2 ⟨slp, hyp, rfl, hb2, hs2, hh⟩

/-! ### Blocked operators -/

theorem runs_setBlock (hl : OpHeap lib l) {ops : Nat → Nat → Option Nat} {rng dual dom : List (Option Space)} {p q k : Nat} (hk : StandsAs lib S z l k d r t a)
    (hp : p < rng.length) (hq : q < dom.length) (h1 : rng.getD p none = none ∨ rng.getD p none = some r) (h2 : dual.getD p none = none ∨ dual.getD p none = some t)
    (h3 : dom.getD q none = none ∨ dom.getD q none = some d) :
    Runs lib (setBlock ⟨.base ops, rng, dual, dom⟩ p q k) l fun b' l' => l' = l ∧
      b' = ⟨.base fun a c => if a = p ∧ c = q then some k else ops a c, rng.set p (some r), dual.set p (some t), dom.set q (some d)⟩ := by
  have hcl : ∀ (o : Option Space) (x : Space), o = none ∨ o = some x → clash o x = false := by
    rintro o x (rfl | rfl) <;> simp [clash]
  refine ⟨_, [], ?_, by rw [List.append_nil]; exact hl, List.append_nil l, rfl⟩
  have e1 : (componentsOf l).range k = r := hk.range
  have e2 : (componentsOf l).dualToRange k = t := hk.dual
  have e3 : (componentsOf l).domain k = d := hk.domain
  unfold setBlock BNode.setItem
  dsimp only
  rw [e1, e2, e3, if_neg (by omega), hcl _ _ h1, hcl _ _ h2, hcl _ _ h3, List.append_nil]
  rfl

/-- The four assignments, in any of the two orders, of operators with matching spaces. -/
theorem runs_setBlocks (hl : OpHeap lib l) {d0 d1 r0 r1 t0 t1 : Space} {b00 b01 b10 b11 : Nat} {a00 a01 a10 a11 : V →ₗ[ℝ] V →ₗ[ℝ] ℂ}
    (h00 : StandsAs lib S False l b00 d0 r0 t0 a00) (h01 : StandsAs lib S False l b01 d1 r0 t0 a01) (h10 : StandsAs lib S False l b10 d0 r1 t1 a10)
    (h11 : StandsAs lib S False l b11 d1 r1 t1 a11) :
    Runs lib (setBlocks b00 b01 b10 b11) l fun b l' => l' = l ∧ b.domain = [some d0, some d1] ∧ b.range = [some r0, some r1] ∧ b.dualToRange = [some t0, some t1] ∧
      ∃ ops, b.kind = .base ops ∧ ops 0 0 = some b00 ∧ ops 0 1 = some b01 ∧ ops 1 0 = some b10 ∧ ops 1 1 = some b11 := by
  unfold setBlocks BNode.new
  refine (runs_setBlock hl h00 (by simp) (by simp) (by simp) (by simp) (by simp)).bind fun b new _ ⟨e, hb⟩ => ?_
  rw [e, hb]
  refine (runs_setBlock hl h01 (by simp) (by simp) (by simp) (by simp) (by simp)).bind fun b new _ ⟨e, hb⟩ => ?_
  rw [e, hb]
  refine (runs_setBlock hl h10 (by simp) (by simp) (by simp) (by simp) (by simp)).bind fun b new _ ⟨e, hb⟩ => ?_
  rw [e, hb]
  refine (runs_setBlock hl h11 (by simp) (by simp) (by simp) (by simp) (by simp)).mono fun b new ⟨e, hb⟩ => ?_
  rw [e, hb]
  refine ⟨rfl, rfl, rfl, rfl, _, rfl, ?_⟩
  simp

/-- Blocks, one by one. -/
theorem hasBlocks {b : BNode} {d0 d1 r0 r1 t0 t1 : Space} {b00 b01 b10 b11 : Nat} {f00 f01 f10 f11 : V → V → ℂ} {ops : Nat → Nat → Option Nat}
    (hd : b.domain = [some d0, some d1]) (hr : b.range = [some r0, some r1]) (ht : b.dualToRange = [some t0, some t1]) (hk : b.kind = .base ops)
    (o00 : ops 0 0 = some b00) (o01 : ops 0 1 = some b01) (o10 : ops 1 0 = some b10) (o11 : ops 1 1 = some b11)
    (h00 : HasForm lib l b00 d0 r0 t0 (S.galerkin lib.core f00 t0 d0)) (h01 : HasForm lib l b01 d1 r0 t0 (S.galerkin lib.core f01 t0 d1))
    (h10 : HasForm lib l b10 d0 r1 t1 (S.galerkin lib.core f10 t1 d0)) (h11 : HasForm lib l b11 d1 r1 t1 (S.galerkin lib.core f11 t1 d1)) :
    HasBlocks lib S l b ![d0, d1] ![r0, r1] ![t0, t1] ![![f00, f01], ![f10, f11]] := by
  refine ⟨hd, hr, ht, ops, hk, fun i j => ?_⟩
  fin_cases i <;> fin_cases j
  · exact ⟨b00, o00, h00⟩
  · exact ⟨b01, o01, h01⟩
  · exact ⟨b10, o10, h10⟩
  · exact ⟨b11, o11, h11⟩

theorem runs_negate (hl : OpHeap lib l) (h : StandsAs lib S z l i d r t a) : Runs lib (negate i) l fun j l' => StandsAs lib S z l' j d r t (-a) := by
  refine (runs_scaled hl h ⟨-1, false⟩ (fun _ => by simp)).mono fun j new hj => hj.congr fun _ _ _ _ => ?_
  simp

end

end Verif.PyOp
