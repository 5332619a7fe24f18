import Verif.Lemmas.PyOperators3
/-
Lemmas for C95: the functions of the interface.
-/
namespace Verif.PyOp
noncomputable section

variable {V : Type} [AddCommGroup V] [Module ℝ V] {lib : Library} {S : Surface V} {z : Prop} {l : List Node} {i j : Nat} {d r t s : Space}
  {a b : V →ₗ[ℝ] V →ₗ[ℝ] ℂ}

/-- Projections to spaces that contain the new ones change nothing. -/
theorem runs_project_nested (hx : Exact lib S) (hl : OpHeap lib l) (h : StandsAs lib S z l i d r t a) (d' r' t' : Space)
    (hd : ∀ q < lib.core.dofs d', S.basis d' q ∈ S.span lib.core d) (ht : ∀ q < lib.core.dofs t', S.basis t' q ∈ S.span lib.core t) :
    Runs lib (project i d' r' t') l fun j l' => StandsAs lib S z l' j d' r' t' a :=
  (runs_project hx hl h d' r' t').mono fun _ _ hj => hj.congr fun p hp q hq => by
    rw [projForm_apply, proj_self hx (ht p hp), proj_self hx (hd q hq)]

theorem runs_plain (hx : Exact lib S) (hn : Nested lib S) (hl : OpHeap lib l) (k : Label) (d r t : Space) (u : Bool) :
    Runs lib (if u then do
        let i ← elementary lib k (lib.spaces.superSpace d) r (lib.spaces.superSpace t)
        project i d r t
      else elementary lib k d r t) l fun i l' => StandsAs lib S True l' i d r t (S.form k) := by
  cases u with
  | false => exact runs_elementary hx hl k d r t
  | true =>
    refine (runs_elementary hx hl k _ r _).bind fun i new hl1 hi => ?_
    exact runs_project_nested hx hl1 hi d r t (fun q hq => hn.super d (basis_mem d q hq)) (fun q hq => hn.super t (basis_mem t q hq))

theorem runs_preprocess (hx : Exact lib S) (hn : Nested lib S) (hl : OpHeap lib l) (n : Nat) (k : Label) (d r t : Space) (u : Bool) :
    Runs lib (preprocess lib (n + 2) k d r t u) l fun i l' => StandsAs lib S True l' i d r t (S.form k) := by
  unfold preprocess
  split
  · rename_i d' t' hb
    have hd : lib.spaces.nonBarycentric d = some d' ∧ lib.spaces.nonBarycentric t = some t' := by
      unfold nonBarycentricSpaces at hb
      split at hb
      · split at hb
        · rename_i x y hx hy
          simp only [Option.some.injEq, Prod.mk.injEq] at hb
          rw [hx, hy, hb.1, hb.2]; exact ⟨rfl, rfl⟩
        · cases hb
      · cases hb
    obtain ⟨e1, e2, e3⟩ := hn.nonBarycentric d d' hd.1
    obtain ⟨f1, f2, f3⟩ := hn.nonBarycentric t t' hd.2
    have hnone : nonBarycentricSpaces lib d' t' = none := by
      unfold nonBarycentricSpaces
      rw [e3, f3]
      rfl
    have : Runs lib (preprocess lib (n + 1) k d' r t' u) l fun i l' => StandsAs lib S True l' i d' r t' (S.form k) := by
      unfold preprocess
      rw [hnone]
      exact runs_plain hx hn hl k d' r t' u
    refine this.bind fun i new hl1 hi => ?_
    exact runs_rewrite hl1 hi d r t (S.form k) e1.symm f1.symm fun p hp q hq => by rw [e2, f2]
  · exact runs_plain hx hn hl k d r t u

theorem runs_operator (hx : Exact lib S) (hn : Nested lib S) (hl : OpHeap lib l) (wave : Bool) (k : Label) (d r t : Space) (u : Bool) :
    Runs lib (operator lib wave k d r t u) l fun i l' => StandsAs lib S True l' i d r t (S.form k) := by
  unfold operator
  obtain ⟨n, h⟩ : ∃ n, lib.limit = n + 2 := ⟨lib.limit - 2, by have := hn.limit; omega⟩
  rw [h]
  exact runs_preprocess hx hn hl n k d r t _

/-- The bilinear form of the compound hypersingular operator. -/
def compoundForm (S : Surface V) (core : Core) (wave2 : Option Scalar) (a : V →ₗ[ℝ] V →ₗ[ℝ] ℂ) (s : Space) : V →ₗ[ℝ] V →ₗ[ℝ] ℂ :=
  0 + stepForm S core wave2 a s 0 + stepForm S core wave2 a s 1 + stepForm S core wave2 a s 2

theorem runs_compound (hx : Exact lib S) (hl : OpHeap lib l) (wave2 : Option Scalar) (hc : ∀ c, wave2 = some c → c.complex = false → star c.value = c.value)
    {slp : Nat} {r0 : Space} (hj : StandsAs lib S False l slp s r0 s a) (d r : Space) :
    Runs lib (do
      let l ← get
      let n := nodesOf l slp
      let compound ← alloc ⟨.zero, d, n.range, d⟩
      let compound ← [0, 1, 2].foldlM (compoundStep lib wave2 d n.domain slp) compound
      rewriteSpaces compound d r d) l fun q l' => StandsAs lib S False l' q d r d (compoundForm S lib.core wave2 a s) := by
  refine (runs_get hl).bind fun l0 new hl0 ⟨h1, h2⟩ => ?_
  subst h1
  rw [h2]
  dsimp only
  rw [hj.domain, hj.range]
  refine (runs_zero (S := S) hl d r0 d).bind fun p new1 hl1 hp => ?_
  have hj1 := hj.extend hl new1
  generalize l0 ++ new1 = l1 at *
  simp only [List.foldlM_cons, List.foldlM_nil, bind_pure]
  have key : Runs lib (do
      let c ← compoundStep lib wave2 d s slp p 0
      let c ← compoundStep lib wave2 d s slp c 1
      compoundStep lib wave2 d s slp c 2) l1 fun q l' => StandsAs lib S False l' q d r0 d (compoundForm S lib.core wave2 a s) := by
    refine (runs_compoundStep hx hl1 wave2 hc hj1 hp 0).bind fun p2 new2 hl2 hp2 => ?_
    have hj2 := hj1.extend hl1 new2
    generalize l1 ++ new2 = l2 at *
    refine (runs_compoundStep hx hl2 wave2 hc hj2 hp2 1).bind fun p3 new3 hl3 hp3 => ?_
    have hj3 := hj2.extend hl2 new3
    generalize l2 ++ new3 = l3 at *
    exact runs_compoundStep hx hl3 wave2 hc hj3 hp3 2
  refine key.bind fun q new4 hl4 hq => ?_
  exact runs_rewrite hl4 hq d r d _ rfl rfl fun _ _ _ _ => rfl

theorem runs_hyp_no (hx : Exact lib S) (hn : Nested lib S) (hl : OpHeap lib l) (wave2 : Option Scalar) (d r t : Space) (u : UseSlp) (p : Bool)
    (h : d ≠ t ∨ u = .no) : Runs lib (hypersingular lib wave2 d r t u p) l fun q l' => StandsAs lib S True l' q d r t (S.form .hyp) := by
  have hu : (if d ≠ t then UseSlp.no else u) = .no := by
    split
    · rfl
    · rename_i hd; exact h.resolve_left hd
  unfold hypersingular
  rw [hu]
  exact runs_operator hx hn hl _ _ _ _ _ _

theorem runs_hyp_op (hx : Exact lib S) (hl : OpHeap lib l) (wave2 : Option Scalar) (hc : ∀ c, wave2 = some c → c.complex = false → star c.value = c.value)
    {slp : Nat} {r0 : Space} (hj : StandsAs lib S False l slp s r0 s a) (d r : Space) (p : Bool) :
    Runs lib (hypersingular lib wave2 d r d (.op slp) p) l fun q l' => StandsAs lib S False l' q d r d (compoundForm S lib.core wave2 a s) := by
  have hu : (if d ≠ d then UseSlp.no else UseSlp.op slp) = .op slp := if_neg (fun h => h rfl)
  unfold hypersingular
  rw [hu]
  exact runs_compound hx hl wave2 hc hj d r

theorem runs_hyp_yes (hx : Exact lib S) (hn : Nested lib S) (hl : OpHeap lib l) (wave2 : Option Scalar)
    (hc : ∀ c, wave2 = some c → c.complex = false → star c.value = c.value) (d r : Space) (p : Bool) :
    Runs lib (hypersingular lib wave2 d r d .yes p) l fun q l' =>
      StandsAs lib S False l' q d r d (compoundForm S lib.core wave2 (S.form .slp) (lib.spaces.discontinuous d)) := by
  have hu : (if d ≠ d then UseSlp.no else UseSlp.yes) = .yes := if_neg (fun h => h rfl)
  unfold hypersingular
  rw [hu]
  refine (runs_operator hx hn hl _ .slp _ r _ true).bind fun i new hl1 hi => ?_
  exact runs_compound hx hl1 wave2 hc (hi.weaken fun h => h.elim) d r

end

end Verif.PyOp
