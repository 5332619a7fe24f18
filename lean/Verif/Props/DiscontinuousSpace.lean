import Verif.Lemmas.DiscontinuousSpace
import Mathlib.Tactic.FinCases
import Mathlib.Tactic.Ring
/-
C121: discontinuous counterparts of spaces.
-/
namespace Verif.DiscSpace
open Verif.Compat Verif.Grid Verif.Shape Verif.Space

/-- **C121, partial.**  After any history of grids, refinements, spaces and calls, for every space that is up to date and of a class
for which the promise is kept, `discontinuousSpace` with the space itself as argument returns a space that is a discontinuous
counterpart. -/
theorem C121_contract_partial (ops : List Op) (i : Nat) (r : Raw) (hr : (State.init.run ops).spaces[i]? = some r) (hk : Kept r)
    (hu : UpToDate (State.init.run ops).world r) :
    ∃ j o s', (State.init.run ops).discontinuousSpace i r i = (.space j, s') ∧ s'.spaces[j]? = some o ∧ IsCounterpart r o := by
  have h := run_ok init_ok ops
  generalize State.init.run ops = s at *
  unfold State.discontinuousSpace
  cases hkp : s.kept i with
  | some j =>
    obtain ⟨r', o, hr', ho, _, hc⟩ := h.kept i j hkp
    rw [hr] at hr'; cases hr'
    exact ⟨j, o, s, rfl, ho, hc hk hu⟩
  | none =>
    dsimp only
    rcases hc : counterpart s.world r with ⟨c, w⟩
    cases c with
    | self =>
      refine ⟨i, r, s, by simp, hr, self_counterpart ?_⟩
      obtain ⟨⟨cls, G, seg⟩, l, g⟩ := r
      cases cls <;> first | rfl | (simp [counterpart] at hc)
    | throws =>
      exfalso
      obtain ⟨⟨cls, G, seg⟩, l, g⟩ := r
      obtain ⟨_, _, h3, _⟩ := hk
      cases cls <;> first | exact h3 rfl | (simp [counterpart] at hc)
    | make a =>
      exact ⟨_, (w.create a).1, _, rfl, by simp, make_counterpart hc (h.spaces i r hr) hk hu⟩

/-- **C121 (the same object each time).**  Once a space has returned its counterpart, it returns the same object, and makes no new one,
after any further history; and the counterpart of a space that is a discontinuous counterpart is that space itself. -/
theorem C121_same (ops more : List Op) (i self j : Nat) (r : Raw) (s' : State) (hr : (State.init.run ops).spaces[i]? = some r)
    (hd : (State.init.run ops).discontinuousSpace i r self = (.space j, s')) :
    (s'.run more).discontinuousSpace i r self = (.space j, s'.run more) ∧
      ∀ o, s'.spaces[j]? = some o → isDiscontinuous o.args.cls = true →
        (s'.run more).discontinuousSpace j o j = (.space j, s'.run more) := by
  have h := run_ok init_ok ops
  generalize State.init.run ops = s at *
  have h' : Ok s' := by have := disc_ok h (self := self) hr; rw [hd] at this; exact this
  have hm := run_ok h' more
  have hst := run_stays s' more
  constructor
  · unfold State.discontinuousSpace at hd
    cases hkp : s.kept i with
    | some k =>
      rw [hkp] at hd
      simp only [Prod.mk.injEq, Reply.space.injEq] at hd
      obtain ⟨rfl, rfl⟩ := hd
      unfold State.discontinuousSpace
      rw [hst.1 i k hkp]
    | none =>
      rw [hkp] at hd
      dsimp only at hd
      rcases hc : counterpart s.world r with ⟨c, w⟩
      rw [hc] at hd
      cases c with
      | self =>
        dsimp only at hd
        by_cases hs : self = i
        · rw [if_neg (by simp [hs])] at hd
          simp only [Prod.mk.injEq, Reply.space.injEq] at hd
          obtain ⟨rfl, rfl⟩ := hd
          have hdis : isDiscontinuous r.args.cls = true := by
            obtain ⟨⟨cls, G, seg⟩, l, g⟩ := r
            cases cls <;> first | rfl | (simp [counterpart] at hc)
          unfold State.discontinuousSpace
          have hkn : (s.run more).kept i = none := by
            cases hx : (s.run more).kept i with
            | none => rfl
            | some k =>
              obtain ⟨r', o, hr', _, hf, _⟩ := hm.kept i k hx
              rw [hst.2 i r hr] at hr'; cases hr'
              rw [hdis] at hf; cases hf.1
          rw [hkn]
          dsimp only
          rw [counterpart_self hdis]
          simp [hs]
        · rw [if_pos hs] at hd; simp at hd
      | throws => simp at hd
      | make a =>
        simp only [Prod.mk.injEq, Reply.space.injEq] at hd
        obtain ⟨rfl, rfl⟩ := hd
        unfold State.discontinuousSpace
        rw [hst.1 i s.spaces.length (by simp)]
  · intro o ho hdis
    unfold State.discontinuousSpace
    have hkn : (s'.run more).kept j = none := by
      cases hx : (s'.run more).kept j with
      | none => rfl
      | some k =>
        obtain ⟨r', o', hr', _, hf, _⟩ := hm.kept j k hx
        rw [hst.2 j o ho] at hr'; cases hr'
        rw [hdis] at hf; cases hf.1
    rw [hkn]
    dsimp only
    rw [counterpart_self hdis]
    simp

/-- **C121 (errors).**  A discontinuous space refuses a pointer to another object, and the unit space has no counterpart. -/
theorem C121_errors (ops : List Op) (i self : Nat) (r : Raw) (hr : (State.init.run ops).spaces[i]? = some r) :
    (isDiscontinuous r.args.cls = true → self ≠ i →
      (State.init.run ops).discontinuousSpace i r self = (.invalidArgument, State.init.run ops)) ∧
    (r.args.cls = .unit → (State.init.run ops).discontinuousSpace i r self = (.runtimeError, State.init.run ops)) := by
  have h := run_ok init_ok ops
  generalize State.init.run ops = s at *
  constructor
  · intro hdis hs
    have hkn : s.kept i = none := by
      cases hx : s.kept i with
      | none => rfl
      | some k =>
        obtain ⟨r', o, hr', _, hf, _⟩ := h.kept i k hx
        rw [hr] at hr'; cases hr'
        rw [hdis] at hf; cases hf.1
    unfold State.discontinuousSpace
    rw [hkn]
    dsimp only
    rw [counterpart_self hdis]
    simp [hs]
  · intro hu
    unfold State.discontinuousSpace
    cases hx : s.kept i with
    | some k =>
      obtain ⟨r', o, hr', _, hf, _⟩ := h.kept i k hx
      rw [hr] at hr'; cases hr'
      exact absurd hu hf.2
    | none => simp [counterpart, hu]

/-! ### Components of vector functions -/

theorem inLinears_affine (a b c : ℝ) : InLinears fun q => a + b * q.1 + c * q.2 := by
  refine ⟨fun k => if k = 0 then a else if k = 1 then a + b else a + c, fun q => ?_⟩
  simp [p1Shape]
  ring

theorem inLinears_zero : InLinears fun _ => 0 := ⟨fun _ => 0, fun _ => by simp⟩

theorem inLinears_add {f g : ℝ × ℝ → ℝ} (hf : InLinears f) (hg : InLinears g) : InLinears fun q => f q + g q := by
  obtain ⟨c, hc⟩ := hf
  obtain ⟨d, hd⟩ := hg
  exact ⟨fun k => c k + d k, fun q => by dsimp only; rw [hc, hd]; ring⟩

theorem inLinears_smul {f : ℝ × ℝ → ℝ} (x : ℝ) (hf : InLinears f) : InLinears fun q => x * f q := by
  obtain ⟨c, hc⟩ := hf
  exact ⟨fun k => x * c k, fun q => by dsimp only; rw [hc]; ring⟩

/-- Both components of the shape function are linear. -/
def Lin (s : ℝ × ℝ → BasisAt) : Prop := InLinears (fun q => (s q).v0) ∧ InLinears fun q => (s q).v1

theorem lin_rt (k : Nat) : Lin (rtShape k) := by
  have h0 : InLinears fun q => q.1 := by simpa using inLinears_affine 0 1 0
  have h1 : InLinears fun q => q.2 := by simpa using inLinears_affine 0 0 1
  have h2 : InLinears fun q => q.1 - 1 := by
    have := inLinears_affine (-1) 1 0
    convert this using 2; ring
  have h3 : InLinears fun q => q.2 - 1 := by
    have := inLinears_affine (-1) 0 1
    convert this using 2; ring
  unfold Lin rtShape
  by_cases k0 : k = 0
  · simpa [k0] using ⟨h0, h3⟩
  · by_cases k1 : k = 1
    · simpa [k1] using ⟨h2, h1⟩
    · simpa [k0, k1] using ⟨h0, h1⟩

theorem lin_rotate {s : ℝ × ℝ → BasisAt} (h : Lin s) : Lin fun q => rotate (s q) :=
  ⟨by have := inLinears_smul (-1) h.2; simpa [rotate] using this, h.1⟩

theorem lin_combine (c : Nat → ℝ) {f : Nat → ℝ × ℝ → BasisAt} (h : ∀ j, Lin (f j)) : Lin fun q => combine c fun j => f j q := by
  constructor
  · have := inLinears_add (inLinears_add (inLinears_smul (c 0) (h 0).1) (inLinears_smul (c 1) (h 1).1)) (inLinears_smul (c 2) (h 2).1)
    simpa [combine, List.range_succ] using this
  · have := inLinears_add (inLinears_add (inLinears_smul (c 0) (h 0).2) (inLinears_smul (c 1) (h 1).2)) (inLinears_smul (c 2) (h 2).2)
    simpa [combine, List.range_succ] using this

theorem lin_hdiv {s : ℝ × ℝ → BasisAt} (h : Lin s) (g : GeomData) (i : Fin 3) : InLinears fun q => component (hdivValue (s q) g) i := by
  fin_cases i
  · have := inLinears_add (inLinears_smul (g.jt0.x / g.integrationElement) h.1) (inLinears_smul (g.jt1.x / g.integrationElement) h.2)
    convert this using 2
    simp only [component, hdivValue]; ring
  · have := inLinears_add (inLinears_smul (g.jt0.y / g.integrationElement) h.1) (inLinears_smul (g.jt1.y / g.integrationElement) h.2)
    convert this using 2
    simp only [component, hdivValue]; ring
  · have := inLinears_add (inLinears_smul (g.jt0.z / g.integrationElement) h.1) (inLinears_smul (g.jt1.z / g.integrationElement) h.2)
    convert this using 2
    simp only [component, hdivValue]; ring

theorem lin_hcurl {s : ℝ × ℝ → BasisAt} (h : Lin s) (g : GeomData) (i : Fin 3) : InLinears fun q => component (hcurlValue (s q) g) i := by
  fin_cases i
  · exact inLinears_add (inLinears_smul g.jit0.x h.1) (inLinears_smul g.jit1.x h.2)
  · exact inLinears_add (inLinears_smul g.jit0.y h.1) (inLinears_smul g.jit1.y h.2)
  · exact inLinears_add (inLinears_smul g.jit0.z h.1) (inLinears_smul g.jit1.z h.2)

/-- The shape functions of the vector spaces with their transformation to the element. -/
inductive VectorFunction : (GeomData → ℝ × ℝ → P3 ℝ) → Prop where
  | rt (k : Nat) : VectorFunction fun g q => hdivValue (rtShape k q) g
  | rtBary (t : BaryType) (k : Nat) : VectorFunction fun g q => hdivValue (rtBaryShape t k q) g
  | bc (cols : List (Col ℝ)) (k : Nat) : VectorFunction fun g q => hdivValue (bcShape cols k q) g
  | nc (k : Nat) : VectorFunction fun g q => hcurlValue (ncShape k q) g
  | ncBary (t : BaryType) (k : Nat) : VectorFunction fun g q => hcurlValue (ncBaryShape t k q) g
  | rbc (cols : List (Col ℝ)) (k : Nat) : VectorFunction fun g q => hcurlValue (rbcShape cols k q) g

theorem vector_linear {f : GeomData → ℝ × ℝ → P3 ℝ} (h : VectorFunction f) (g : GeomData) (i : Fin 3) :
    InLinears fun q => component (f g q) i := by
  have hnc : ∀ j, Lin (ncShape j) := fun j => lin_rotate (lin_rt j)
  cases h with
  | rt k => exact lin_hdiv (lin_rt k) g i
  | rtBary t k => exact lin_hdiv (lin_combine _ lin_rt) g i
  | bc cols k => exact lin_hdiv (lin_combine _ lin_rt) g i
  | nc k => exact lin_hcurl (hnc k) g i
  | ncBary t k => exact lin_hcurl (s := ncBaryShape t k) (lin_rotate (lin_combine _ lin_rt)) g i
  | rbc cols k => exact lin_hcurl (lin_combine _ hnc) g i

/-- **C121 (vector functions).**  On every flat triangle of any shape, every component of every sum, with any coefficients and weights,
of shape functions of the Raviart-Thomas, RWG, Nedelec, scaled Nedelec, Buffa-Christiansen or rotated Buffa-Christiansen spaces is a
sum of the three shape functions of the discontinuous linear space, the coefficients being its values at the corners. -/
theorem C121_components (mesh : GridData ℝ) (t : Tri) (terms : List (ℝ × (GeomData → ℝ × ℝ → P3 ℝ)))
    (h : ∀ x ∈ terms, VectorFunction x.2) (i : Fin 3) (q : ℝ × ℝ) :
    let F : ℝ × ℝ → ℝ := fun q => (terms.map fun x => x.1 * component (x.2 (elementData mesh t) q) i).sum
    F q = F (0, 0) * p1Shape 0 q + F (1, 0) * p1Shape 1 q + F (0, 1) * p1Shape 2 q := by
  intro F
  have hF : InLinears F := by
    clear q
    induction terms with
    | nil => exact inLinears_zero
    | cons x l ih =>
      have h1 := inLinears_smul x.1 (vector_linear (h x (by simp)) (elementData mesh t) i)
      have h2 := ih fun y hy => h y (by simp [hy])
      have := inLinears_add h1 h2
      simpa [F] using this
  obtain ⟨c, hc⟩ := hF
  rw [hc, hc (0, 0), hc (1, 0), hc (0, 1)]
  simp [p1Shape]

/-! ### Where the promise is broken -/

/-- **C121, counterexample (dual grid).**  The counterpart of the piecewise constant functions on the dual grid refers to another grid:
the barycentric refinement is refined again. -/
theorem C121_counterexample_dual : ∃ (ops : List Op) (r o : Raw) (s' : State), (State.init.run ops).spaces[0]? = some r ∧
    UpToDate (State.init.run ops).world r ∧ (State.init.run ops).discontinuousSpace 0 r 0 = (.space 1, s') ∧ s'.spaces[1]? = some o ∧
    o.grid ≠ r.grid :=
  ⟨[.newGrid, .space ⟨.constantDual, 0, none⟩], ⟨⟨.constantDual, 0, none⟩, 0, 1⟩, ⟨⟨.constantDualDisc, 1, none⟩, 0, 2⟩, _, rfl, rfl, rfl,
    rfl, by decide⟩

/-- **C121, counterexample (linear functions on the barycentric grid).**  The counterpart of the continuous linear functions is not
discontinuous, by its own account, and has itself another counterpart. -/
theorem C121_counterexample_linear : ∃ (ops : List Op) (r o : Raw) (s' : State), (State.init.run ops).spaces[0]? = some r ∧
    UpToDate (State.init.run ops).world r ∧ (State.init.run ops).discontinuousSpace 0 r 0 = (.space 1, s') ∧ s'.spaces[1]? = some o ∧
    isDiscontinuous o.args.cls = false ∧ (s'.discontinuousSpace 1 o 1).1 = .space 2 :=
  ⟨[.newGrid, .space ⟨.linearBary, 0, none⟩], ⟨⟨.linearBary, 0, none⟩, 0, 1⟩, ⟨⟨.linearDiscBary, 0, none⟩, 0, 1⟩, _, rfl, rfl, rfl,
    rfl, rfl, rfl⟩

/-- **C121, counterexample (segment of another grid).**  The counterpart of the discontinuous linear functions on a segment of the
barycentric grid is made with a segment of the original grid. -/
theorem C121_counterexample_segment : ∃ (ops : List Op) (r o : Raw) (s' : State), (State.init.run ops).spaces[0]? = some r ∧
    UpToDate (State.init.run ops).world r ∧ (State.init.run ops).discontinuousSpace 0 r 0 = (.space 1, s') ∧ s'.spaces[1]? = some o ∧
    o.args.segment = some 5 ∧ r.args.segment = some 5 ∧ o.args.grid ≠ r.args.grid :=
  ⟨[.newGrid, .space ⟨.linearDiscBary, 0, some 5⟩], ⟨⟨.linearDiscBary, 0, some 5⟩, 0, 1⟩, ⟨⟨.linearDisc, 1, some 5⟩, 0, 1⟩, _, rfl, rfl,
    rfl, rfl, rfl, rfl, by decide⟩

/-- **C121, counterexample (refined grid).**  If the grid has been refined since the space was made, the first call makes a counterpart
on the refined grid: for the constants on the barycentric grid on another grid object, for the continuous linear functions on the same
object with other elements. -/
theorem C121_counterexample_refined : ∃ (ops : List Op) (r o x y : Raw) (s' s'' : State), (State.init.run ops).spaces[0]? = some r ∧
    (State.init.run ops).spaces[1]? = some x ∧
    (State.init.run ops).discontinuousSpace 0 r 0 = (.space 2, s') ∧ s'.spaces[2]? = some o ∧ o.grid ≠ r.grid ∧
    (State.init.run ops).discontinuousSpace 1 x 1 = (.space 2, s'') ∧ s''.spaces[2]? = some y ∧ y.grid = x.grid ∧ y.level ≠ x.level :=
  ⟨[.newGrid, .space ⟨.constantBary, 0, none⟩, .space ⟨.linear, 0, none⟩, .refine 0],
    ⟨⟨.constantBary, 0, none⟩, 0, 1⟩, ⟨⟨.constant, 2, none⟩, 0, 2⟩, ⟨⟨.linear, 0, none⟩, 0, 0⟩, ⟨⟨.linearDisc, 0, none⟩, 1, 0⟩, _, _,
    rfl, rfl, rfl, rfl, by decide, rfl, rfl, rfl, by decide⟩

/-! ### Instances -/

/-- A history with spaces of several classes that meet the hypotheses of `C121_contract_partial`. -/
example : ∃ (ops : List Op), ∀ (i : Nat) (r : Raw), (State.init.run ops).spaces[i]? = some r → Kept r ∧ UpToDate (State.init.run ops).world r := by
  refine ⟨[.newGrid, .refine 0, .space ⟨.rwg, 0, some 3⟩, .space ⟨.constantBary, 0, none⟩, .space ⟨.bc, 0, none⟩,
    .space ⟨.linear, 0, some 3⟩, .discontinuous 3 3, .newGrid, .refine 2], ?_⟩
  intro i r hr
  match i with
  | 0 => cases hr; exact ⟨⟨by decide, by decide, by decide, by decide⟩, rfl⟩
  | 1 => cases hr; exact ⟨⟨by decide, by decide, by decide, by decide⟩, rfl⟩
  | 2 => cases hr; exact ⟨⟨by decide, by decide, by decide, by decide⟩, rfl⟩
  | 3 => cases hr; exact ⟨⟨by decide, by decide, by decide, by decide⟩, rfl⟩
  | 4 => cases hr; exact ⟨⟨by decide, by decide, by decide, by decide⟩, rfl⟩
  | n + 5 => cases hr

/-- A sum of an RWG and a rotated Buffa-Christiansen function. -/
example : ∀ x ∈ ([(2, fun g q => hdivValue (rtShape 1 q) g), (-1, fun g q => hcurlValue (rbcShape [⟨1, 0, 2⟩] 0 q) g)] :
    List (ℝ × (GeomData → ℝ × ℝ → P3 ℝ))), VectorFunction x.2 := by
  intro x hx
  simp only [List.mem_cons, List.not_mem_nil, or_false] at hx
  rcases hx with rfl | rfl
  · exact .rt 1
  · exact .rbc _ 0

end Verif.DiscSpace
