import Verif.Lemmas.PyOperators7
import Verif.Props.PyBoundary
/-
C95: operators constructed from others have the Galerkin matrices their names promise.
-/
namespace Verif.PyOp
noncomputable section

variable {V : Type} [AddCommGroup V] [Module ℝ V] {lib : Library} {S : Surface V} {l : List Node}

/-- Every function has exactly one L2 projection to a space. -/
theorem C95_projection_unique (hx : Exact lib S) (s : Space) (v : V) : ∃! p, S.IsProjection lib.core s v p :=
  ⟨projL S lib.core s v, proj_spec hx s v, fun _ hq => (proj_eq hx hq).symm⟩

/-- `project_operator` to any spaces: the matrix of the form after L2 projections to the spaces of the operator. -/
theorem C95_project (hx : Exact lib S) (hl : OpHeap lib l) {i : Nat} {d r t : Space} {a : V →ₗ[ℝ] V →ₗ[ℝ] ℂ}
    (h : HasForm lib l i d r t (S.galerkin lib.core (fun v w => a v w) t d)) (d' r' t' : Space) (P Q : V → V)
    (hP : ∀ v, S.IsProjection lib.core d v (P v)) (hQ : ∀ v, S.IsProjection lib.core t v (Q v)) :
    Runs lib (project i d' r' t') l fun j l' => HasForm lib l' j d' r' t' (S.galerkin lib.core (fun v w => a (Q v) (P w)) t' d') :=
  (runs_project hx hl h.stands d' r' t').mono fun _ _ hj => hj.hasForm fun _ _ _ _ => by
    rw [projForm_apply, proj_eq hx (hQ _), proj_eq hx (hP _)]

/-- `project_operator` to subspaces: the matrix of the same form. -/
theorem C95_project_subspaces (hx : Exact lib S) (hl : OpHeap lib l) {i : Nat} {d r t : Space} {a : V →ₗ[ℝ] V →ₗ[ℝ] ℂ}
    (h : HasForm lib l i d r t (S.galerkin lib.core (fun v w => a v w) t d)) (d' r' t' : Space) (hd : S.span lib.core d' ≤ S.span lib.core d)
    (ht : S.span lib.core t' ≤ S.span lib.core t) :
    Runs lib (project i d' r' t') l fun j l' => HasForm lib l' j d' r' t' (S.galerkin lib.core (fun v w => a v w) t' d') :=
  (runs_project_nested hx hl h.stands d' r' t' (fun q hq => hd (basis_mem d' q hq)) (fun q hq => ht (basis_mem t' q hq))).mono
    fun _ _ hj => hj.hasForm fun _ _ _ _ => rfl

/-- Single-layer, double-layer, adjoint double-layer operators and the others of this kind: with or without projection spaces, for dense and
compressed assembly, on barycentric and ordinary spaces, the matrix is that of the operator in the requested spaces. -/
theorem C95_layer (hx : Exact lib S) (hn : Nested lib S) (hl : OpHeap lib l) (wave : Bool) (k : Label) (d r t : Space) (useProjectionSpaces : Bool) :
    Runs lib (operator lib wave k d r t useProjectionSpaces) l fun i l' => HasForm lib l' i d r t (S.galerkin lib.core (fun v w => S.form k v w) t d) :=
  (runs_operator hx hn hl wave k d r t useProjectionSpaces).mono fun _ _ h => h.hasForm fun _ _ _ _ => rfl

/-- `hypersingular` without `use_slp`, and with it if the domain is not the dual space: then `use_slp` is ignored. -/
theorem C95_hypersingular_direct (hx : Exact lib S) (hn : Nested lib S) (hl : OpHeap lib l) (wave2 : Option Scalar) (d r t : Space) (useSlp : UseSlp)
    (useProjectionSpaces : Bool) (h : d ≠ t ∨ useSlp = .no) :
    Runs lib (hypersingular lib wave2 d r t useSlp useProjectionSpaces) l fun i l' =>
      HasForm lib l' i d r t (S.galerkin lib.core (fun v w => S.form .hyp v w) t d) :=
  (runs_hyp_no hx hn hl wave2 d r t useSlp useProjectionSpaces h).mono fun _ _ h => h.hasForm fun _ _ _ _ => rfl

/-- `hypersingular` with `use_slp` an operator with the form `a`: the sum of `a` over components of curls and normals, projected to its space. -/
theorem C95_hypersingular_slp (hx : Exact lib S) (hl : OpHeap lib l) (wave2 : Option Scalar)
    (hc : ∀ c, wave2 = some c → c.complex = false → star c.value = c.value) {slp : Nat} {s r0 : Space} {a : V →ₗ[ℝ] V →ₗ[ℝ] ℂ}
    (h : HasForm lib l slp s r0 s (S.galerkin lib.core (fun v w => a v w) s s)) (d r : Space) (useProjectionSpaces : Bool) (P : V → V)
    (hP : ∀ v, S.IsProjection lib.core s v (P v)) :
    Runs lib (hypersingular lib wave2 d r d (.op slp) useProjectionSpaces) l fun i l' =>
      HasForm lib l' i d r d (S.galerkin lib.core (S.maue wave2 fun v w => a (P v) (P w)) d d) :=
  (runs_hyp_op hx hl wave2 hc h.stands d r useProjectionSpaces).mono fun _ _ h => h.hasForm fun _ _ _ _ => by
    rw [compoundForm_eq]
    congr 1
    funext v w
    rw [proj_eq hx (hP v), proj_eq hx (hP w)]

/-- If the curls (and normal components, for the Helmholtz equation) belong to the space of the single-layer operator, they are not changed. -/
theorem C95_hypersingular_slp_exact (hx : Exact lib S) (hl : OpHeap lib l) (wave2 : Option Scalar)
    (hc : ∀ c, wave2 = some c → c.complex = false → star c.value = c.value) {slp : Nat} {s r0 : Space} {a : V →ₗ[ℝ] V →ₗ[ℝ] ℂ}
    (h : HasForm lib l slp s r0 s (S.galerkin lib.core (fun v w => a v w) s s)) (d r : Space) (useProjectionSpaces : Bool)
    (hcurl : ∀ c, ∀ v ∈ S.span lib.core d, S.curl c v ∈ S.span lib.core s)
    (hnormal : wave2 = none ∨ ∀ c, ∀ v ∈ S.span lib.core d, S.normal c v ∈ S.span lib.core s) :
    Runs lib (hypersingular lib wave2 d r d (.op slp) useProjectionSpaces) l fun i l' =>
      HasForm lib l' i d r d (S.galerkin lib.core (S.maue wave2 fun v w => a v w) d d) :=
  (runs_hyp_op hx hl wave2 hc h.stands d r useProjectionSpaces).mono fun _ _ h => h.maue hx hcurl hnormal

/-- `use_slp=True`: the single-layer operator on the discontinuous space. -/
theorem C95_hypersingular_true (hx : Exact lib S) (hn : Nested lib S) (hl : OpHeap lib l) (wave2 : Option Scalar)
    (hc : ∀ c, wave2 = some c → c.complex = false → star c.value = c.value) (d r : Space) (useProjectionSpaces : Bool)
    (hcurl : ∀ c, ∀ v ∈ S.span lib.core d, S.curl c v ∈ S.span lib.core (lib.spaces.discontinuous d))
    (hnormal : wave2 = none ∨ ∀ c, ∀ v ∈ S.span lib.core d, S.normal c v ∈ S.span lib.core (lib.spaces.discontinuous d)) :
    Runs lib (hypersingular lib wave2 d r d .yes useProjectionSpaces) l fun i l' =>
      HasForm lib l' i d r d (S.galerkin lib.core (S.maue wave2 fun v w => S.form .slp v w) d d) :=
  (runs_hyp_yes hx hn hl wave2 hc d r useProjectionSpaces).mono fun _ _ h => h.maue hx hcurl hnormal

/-- Where integration by parts is valid, all values of `use_slp` (an operator being one with the single-layer form, on a space with the curls
and normals) give the same matrix: that of the hypersingular operator. -/
theorem C95_hypersingular_agree (hx : Exact lib S) (hn : Nested lib S) (hl : OpHeap lib l) (wave2 : Option Scalar)
    (hc : ∀ c, wave2 = some c → c.complex = false → star c.value = c.value) (d r : Space) (useSlp : UseSlp) (useProjectionSpaces : Bool)
    (hcurl : ∀ c, ∀ v ∈ S.span lib.core d, S.curl c v ∈ S.span lib.core (lib.spaces.discontinuous d))
    (hnormal : wave2 = none ∨ ∀ c, ∀ v ∈ S.span lib.core d, S.normal c v ∈ S.span lib.core (lib.spaces.discontinuous d))
    (hop : ∀ slp, useSlp = .op slp → ∃ s r0, HasForm lib l slp s r0 s (S.galerkin lib.core (fun v w => S.form .slp v w) s s) ∧
      S.span lib.core (lib.spaces.discontinuous d) ≤ S.span lib.core s)
    (hparts : ∀ v ∈ S.span lib.core d, ∀ w ∈ S.span lib.core d, S.form .hyp v w = S.maue wave2 (fun v w => S.form .slp v w) v w) :
    Runs lib (hypersingular lib wave2 d r d useSlp useProjectionSpaces) l fun i l' =>
      HasForm lib l' i d r d (S.galerkin lib.core (fun v w => S.form .hyp v w) d d) := by
  have he : S.galerkin lib.core (fun v w => S.form .hyp v w) d d = S.galerkin lib.core (S.maue wave2 fun v w => S.form .slp v w) d d := by
    ext p q; exact hparts _ (basis_mem d p p.2) _ (basis_mem d q q.2)
  cases useSlp with
  | no => exact C95_hypersingular_direct hx hn hl wave2 d r d .no useProjectionSpaces (Or.inr rfl)
  | yes => rw [he]; exact C95_hypersingular_true hx hn hl wave2 hc d r useProjectionSpaces hcurl hnormal
  | op slp =>
    rw [he]
    obtain ⟨s, r0, h, hs⟩ := hop slp rfl
    exact C95_hypersingular_slp_exact hx hl wave2 hc h d r useProjectionSpaces (fun c v hv => hs (hcurl c v hv))
      (hnormal.imp_right fun h c v hv => hs (h c v hv))

/-! ### Pairs -/

/-- `single_layer_and_hypersingular_pair`, linear spaces. -/
theorem C95_pair_linear (hx : Exact lib S) (hn : Nested lib S) {grid : SpaceName → Space} (hg : GridSpaces lib S grid) (hl : OpHeap lib l) (wave2 : Option Scalar)
    (hc : ∀ c, wave2 = some c → c.complex = false → star c.value = c.value) :
    Runs lib (slpAndHyp lib wave2 grid .linear none) l fun q l' => ∃ slp hyp base, q = some (slp, hyp, base) ∧
      HasForm lib l' slp (grid .P1) (grid .P1) (grid .P1) (S.galerkin lib.core (fun v w => S.form .slp v w) (grid .P1) (grid .P1)) ∧
      HasForm lib l' hyp (grid .P1) (grid .P1) (grid .P1) (S.galerkin lib.core (S.maue wave2 fun v w => S.form .slp v w) (grid .P1) (grid .P1)) ∧
      HasForm lib l' base (grid .DP1) (grid .DP1) (grid .DP1) (S.galerkin lib.core (fun v w => S.form .slp v w) (grid .DP1) (grid .DP1)) := by
  unfold slpAndHyp
  refine (runs_operator hx hn hl wave2.isSome .slp _ _ _ true).bind fun base n1 hl1 h1 => ?_
  refine (runs_pair hx hl1 wave2 hc (h1.weaken fun h => h.elim) _ _ _ _ _).mono fun q n2 hq => ?_
  obtain ⟨slp, hyp, rfl, hb, hs, hh⟩ := hq
  refine ⟨slp, hyp, base, rfl, hs.hasForm fun p hp q hq => ?_, hh.maue hx hg.linearCurl (Or.inr hg.linearNormal), hb.hasForm fun _ _ _ _ => rfl⟩
  rw [projForm_apply, proj_self hx (hg.linear (basis_mem _ p hp)), proj_self hx (hg.linear (basis_mem _ q hq))]

/-- `single_layer_and_hypersingular_pair`, dual spaces. -/
theorem C95_pair_dual (hx : Exact lib S) (hn : Nested lib S) {grid : SpaceName → Space} (hg : GridSpaces lib S grid) (hl : OpHeap lib l) (wave2 : Option Scalar)
    (hc : ∀ c, wave2 = some c → c.complex = false → star c.value = c.value) :
    Runs lib (slpAndHyp lib wave2 grid .dual none) l fun q l' => ∃ slp hyp base, q = some (slp, hyp, base) ∧
      HasForm lib l' slp (grid .DUAL) (grid .BP1) (grid .DUAL) (S.galerkin lib.core (fun v w => S.form .slp v w) (grid .DUAL) (grid .DUAL)) ∧
      HasForm lib l' hyp (grid .BP1) (grid .DUAL) (grid .BP1) (S.galerkin lib.core (S.maue wave2 fun v w => S.form .slp v w) (grid .BP1) (grid .BP1)) := by
  unfold slpAndHyp
  dsimp only
  have hbase : S.span lib.core (grid .DUAL) ≤ S.span lib.core (if wave2.isSome then grid .fineDP1 else grid .fineDP0) ∧
      (∀ c, ∀ v ∈ S.span lib.core (grid .BP1), S.curl c v ∈ S.span lib.core (if wave2.isSome then grid .fineDP1 else grid .fineDP0)) ∧
      (wave2 = none ∨ ∀ c, ∀ v ∈ S.span lib.core (grid .BP1), S.normal c v ∈ S.span lib.core (if wave2.isSome then grid .fineDP1 else grid .fineDP0)) := by
    cases wave2 with
    | none => exact ⟨hg.constant, hg.fineCurl, Or.inl rfl⟩
    | some w => exact ⟨hg.constant.trans hg.fine, fun c v hv => hg.fine (hg.fineCurl c v hv), Or.inr hg.fineNormal⟩
  generalize (if wave2.isSome then grid .fineDP1 else grid .fineDP0) = base0 at hbase ⊢
  obtain ⟨hb1, hb2, hb3⟩ := hbase
  refine (runs_operator hx hn hl wave2.isSome .slp _ _ _ true).bind fun base n1 hl1 h1 => ?_
  refine (runs_pair hx hl1 wave2 hc (h1.weaken fun h => h.elim) _ _ _ _ _).mono fun q n2 hq => ?_
  obtain ⟨slp, hyp, rfl, hb, hs, hh⟩ := hq
  refine ⟨slp, hyp, base, rfl, hs.hasForm fun p hp q hq => ?_, hh.maue hx hb2 hb3⟩
  rw [projForm_apply, proj_self hx (hb1 (basis_mem _ p hp)), proj_self hx (hb1 (basis_mem _ q hq))]

/-- With `base_slp`: the pair on linear spaces uses that operator, whatever its form, on a space that contains the functions, curls and normals. -/
theorem C95_pair_base (hx : Exact lib S) {grid : SpaceName → Space} (hl : OpHeap lib l) (wave2 : Option Scalar)
    (hc : ∀ c, wave2 = some c → c.complex = false → star c.value = c.value) {base : Nat} {s r0 : Space} {a : V →ₗ[ℝ] V →ₗ[ℝ] ℂ}
    (h : HasForm lib l base s r0 s (S.galerkin lib.core (fun v w => a v w) s s)) (hs : S.span lib.core (grid .P1) ≤ S.span lib.core s)
    (hcurl : ∀ c, ∀ v ∈ S.span lib.core (grid .P1), S.curl c v ∈ S.span lib.core s)
    (hnormal : wave2 = none ∨ ∀ c, ∀ v ∈ S.span lib.core (grid .P1), S.normal c v ∈ S.span lib.core s) :
    Runs lib (slpAndHyp lib wave2 grid .linear (some base)) l fun q l' => ∃ slp hyp, q = some (slp, hyp, base) ∧
      HasForm lib l' slp (grid .P1) (grid .P1) (grid .P1) (S.galerkin lib.core (fun v w => a v w) (grid .P1) (grid .P1)) ∧
      HasForm lib l' hyp (grid .P1) (grid .P1) (grid .P1) (S.galerkin lib.core (S.maue wave2 fun v w => a v w) (grid .P1) (grid .P1)) := by
  unfold slpAndHyp
  dsimp only
  refine (Runs.pure (Q := fun q l' => q = base ∧ l' = l) hl ⟨rfl, rfl⟩).bind fun q new _ ⟨e1, e2⟩ => ?_
  rw [e1, e2]
  refine (runs_pair hx hl wave2 hc h.stands _ _ _ _ _).mono fun q n2 hq => ?_
  obtain ⟨slp, hyp, rfl, hb, hsl, hh⟩ := hq
  refine ⟨slp, hyp, rfl, hsl.hasForm fun p hp q hq => ?_, hh.maue hx hcurl hnormal⟩
  rw [projForm_apply, proj_self hx (hs (basis_mem _ p hp)), proj_self hx (hs (basis_mem _ q hq))]

/-- The Laplace pair with `stabilization_factor`: the hypersingular matrix plus the factor times the products of the integrals of the basis functions. -/
theorem C95_pair_stabilised (hx : Exact lib S) (hn : Nested lib S) {grid : SpaceName → Space} (hg : GridSpaces lib S grid) (hl : OpHeap lib l) (c : Scalar)
    (hc : c.complex = false → star c.value = c.value) :
    Runs lib (laplacePair lib grid .linear none (some c)) l fun q l' =>
      HasForm lib l' q.1 (grid .P1) (grid .P1) (grid .P1) (S.galerkin lib.core (fun v w => S.form .slp v w) (grid .P1) (grid .P1)) ∧
      HasForm lib l' q.2.1 (grid .P1) (grid .P1) (grid .P1)
        (S.galerkin lib.core (fun v w => S.maue none (fun v w => S.form .slp v w) v w + c.value * (S.ip v S.one * S.ip w S.one)) (grid .P1) (grid .P1)) := by
  unfold laplacePair slpAndHyp
  dsimp only
  have hpair : Runs lib (do
      let base ← operator lib (none : Option Scalar).isSome .slp (grid .DP1) (grid .DP1) (grid .DP1) true
      let slp ← project base (grid .P1) (grid .P1) (grid .P1)
      let hyp ← hypersingular lib none (grid .P1) (grid .P1) (grid .P1) (.op base) true
      pure (some (slp, hyp, base))) l fun q l' => ∃ slp hyp base, q = some (slp, hyp, base) ∧
        StandsAs lib S False l' slp (grid .P1) (grid .P1) (grid .P1) (projForm S lib.core (S.form .slp) (grid .DP1) (grid .DP1)) ∧
        StandsAs lib S False l' hyp (grid .P1) (grid .P1) (grid .P1) (compoundForm S lib.core none (S.form .slp) (grid .DP1)) := by
    refine (runs_operator hx hn hl _ .slp _ _ _ true).bind fun base n1 hl1 h1 => ?_
    refine (runs_pair hx hl1 none (fun _ h => by cases h) (h1.weaken fun h => h.elim) _ _ _ _ _).mono fun q n2 hq => ?_
    obtain ⟨slp, hyp, rfl, hb, hs, hh⟩ := hq
    exact ⟨slp, hyp, base, rfl, hs, hh⟩
  refine hpair.bind fun q n1 hl1 hq => ?_
  obtain ⟨slp, hyp, base, rfl, hs, hh⟩ := hq
  generalize l ++ n1 = l1 at *
  dsimp only
  refine (runs_get hl1).bind fun l0 new _ ⟨e1, e2⟩ => ?_
  rw [e1, e2, hh.domain, hh.range, hh.dual]
  refine (runs_elementary hx hl1 .rankOne _ _ _).bind fun one n2 hl2 h2 => ?_
  replace hs := hs.extend hl1 n2
  replace hh := hh.extend hl1 n2
  generalize l1 ++ n2 = l2 at *
  refine (runs_scaled hl2 h2 c hc).bind fun sc n3 hl3 h3 => ?_
  replace hs := hs.extend hl2 n3
  replace hh := hh.extend hl2 n3
  generalize l2 ++ n3 = l3 at *
  refine (runs_sum hx hl3 hh (h3.weaken fun h => h.elim)).bind fun sum n4 hl4 h4 => ?_
  replace hs := hs.extend hl3 n4
  refine Runs.pure hl4 ⟨hs.hasForm fun p hp q hq => ?_, h4.hasForm fun p hp q hq => ?_⟩
  · rw [projForm_apply, proj_self hx (hg.linear (basis_mem _ p hp)), proj_self hx (hg.linear (basis_mem _ q hq))]
  · show compoundForm S lib.core none (S.form .slp) (grid .DP1) _ _ + c.value • S.form .rankOne _ _ = _
    rw [compoundForm_eq, hx.rankOne, smul_eq_mul]
    congr 1
    have hp := basis_mem (lib := lib) (S := S) (grid .P1) p hp
    have hq := basis_mem (lib := lib) (S := S) (grid .P1) q hq
    exact maue_congr none (fun c => by rw [proj_self hx (hg.linearCurl c _ hp), proj_self hx (hg.linearCurl c _ hq)]) (Or.inl rfl)

/-! ### Multitrace operators -/

/-- `multitrace_operator(grid, spaces='linear')`: double layer with sign, single layer, hypersingular, and adjoint double layer as transpose. -/
theorem C95_multitrace_linear (hx : Exact lib S) (hn : Nested lib S) {grid : SpaceName → Space} (hg : GridSpaces lib S grid) (hl : OpHeap lib l) (wave2 : Option Scalar)
    (hc : ∀ c, wave2 = some c → c.complex = false → star c.value = c.value) :
    Runs lib (multitrace lib wave2 grid .linear none) l fun b l' => HasBlocks lib S l' b ![grid .P1, grid .P1] ![grid .P1, grid .P1] ![grid .P1, grid .P1]
      ![![fun v w => -S.form .dlp v w, fun v w => S.form .slp v w], ![S.maue wave2 fun v w => S.form .slp v w, fun v w => S.form .dlp w v]] :=
  runs_multitraceLin hx hn hg hl wave2 hc

/-- `multitrace_operator(grid, spaces='dual')`. -/
theorem C95_multitrace_dual (hx : Exact lib S) (hn : Nested lib S) {grid : SpaceName → Space} (hg : GridSpaces lib S grid) (hl : OpHeap lib l) (wave2 : Option Scalar)
    (hc : ∀ c, wave2 = some c → c.complex = false → star c.value = c.value) :
    Runs lib (multitrace lib wave2 grid .dual none) l fun b l' => HasBlocks lib S l' b ![grid .BP1, grid .DUAL] ![grid .BP1, grid .DUAL] ![grid .DUAL, grid .BP1]
      ![![fun v w => -S.form .dlp v w, fun v w => S.form .slp v w], ![S.maue wave2 fun v w => S.form .slp v w, fun v w => S.form .dlp w v]] :=
  runs_multitraceDual hx hn hg hl wave2 hc

/-- `multitrace_operator(grid, spaces='linear', target=...)`. -/
theorem C95_multitrace_target_linear (hx : Exact lib S) (hn : Nested lib S) (source target : SpaceName → Space) (hl : OpHeap lib l) (wave2 : Option Scalar) :
    Runs lib (multitrace lib wave2 source .linear (some target)) l fun b l' =>
      HasBlocks lib S l' b ![source .P1, source .P1] ![target .P1, target .P1] ![target .P1, target .P1]
        ![![fun v w => -S.form .dlp v w, fun v w => S.form .slp v w], ![fun v w => S.form .hyp v w, fun v w => S.form .dlp w v]] :=
  runs_multitraceTarget hx hn source target .P1 .P1 hl wave2

/-- `multitrace_operator(grid, spaces='dual', target=...)`. -/
theorem C95_multitrace_target_dual (hx : Exact lib S) (hn : Nested lib S) (source target : SpaceName → Space) (hl : OpHeap lib l) (wave2 : Option Scalar) :
    Runs lib (multitrace lib wave2 source .dual (some target)) l fun b l' =>
      HasBlocks lib S l' b ![source .BP1, source .DUAL] ![target .BP1, target .DUAL] ![target .DUAL, target .BP1]
        ![![fun v w => -S.form .dlp v w, fun v w => S.form .slp v w], ![fun v w => S.form .hyp v w, fun v w => S.form .dlp w v]] :=
  runs_multitraceTarget hx hn source target .BP1 .DUAL hl wave2

/-- Other values of `spaces` are errors of `multitrace_operator` and of the Laplace pair; the Helmholtz pair returns `None`. -/
theorem C95_unknown_spaces (lib : Library) (wave2 : Option Scalar) (grid : SpaceName → Space) (target : Option (SpaceName → Space)) (base : Option Nat)
    (stabilization : Option Scalar) (l : List Node) :
    multitrace lib wave2 grid .other target l = .error .ValueError ∧ multitraceIdentity lib grid .other l = .error .ValueError ∧
    laplacePair lib grid .other base stabilization l = .error .TypeError ∧ slpAndHyp lib wave2 grid .other base l = .ok (none, l) := by
  refine ⟨?_, rfl, rfl, rfl⟩
  unfold multitrace
  cases target <;> rfl

/-- `multitrace_identity`: the two diagonal blocks are mass matrices of the spaces of `multitrace_operator`; the others are empty. -/
theorem C95_multitrace_identity (hx : Exact lib S) (grid : SpaceName → Space) (hl : OpHeap lib l) (spaces : IdentityPairing) (hs : spaces ≠ .other) :
    Runs lib (multitraceIdentity lib grid spaces) l fun b l' => ∃ d t : Fin 2 → Space,
      (spaces = .linear → d = ![grid .P1, grid .P1] ∧ t = ![grid .P1, grid .P1]) ∧
      (spaces = .dual → d = ![grid .BP1, grid .DUAL] ∧ t = ![grid .DUAL, grid .BP1]) ∧
      (spaces = .maxwell → d = ![grid .BRWG, grid .BC] ∧ t = ![grid .RBC, grid .BSNC]) ∧
      b.domain = [some (d 0), some (d 1)] ∧ b.range = [some (d 0), some (d 1)] ∧ b.dualToRange = [some (t 0), some (t 1)] ∧
      ∃ ops, b.kind = .base ops ∧ ops 0 1 = none ∧ ops 1 0 = none ∧ ∀ i : Fin 2, ∃ k, ops i i = some k ∧
        HasForm lib l' k (d i) (d i) (t i) (S.galerkin lib.core (fun v w => S.ip v w) (t i) (d i)) := by
  have two : ∀ d0 d1 t0 t1 : Space, Runs lib (do
      let a ← elementary lib .identity d0 d0 t0
      let b ← setBlock (BNode.new 2 2) 0 0 a
      let c ← elementary lib .identity d1 d1 t1
      setBlock b 1 1 c) l fun b l' => b.domain = [some d0, some d1] ∧ b.range = [some d0, some d1] ∧ b.dualToRange = [some t0, some t1] ∧
        ∃ ops, b.kind = .base ops ∧ ops 0 1 = none ∧ ops 1 0 = none ∧ ∀ i : Fin 2, ∃ k, ops i i = some k ∧
          HasForm lib l' k (![d0, d1] i) (![d0, d1] i) (![t0, t1] i) (S.galerkin lib.core (fun v w => S.ip v w) (![t0, t1] i) (![d0, d1] i)) := by
    intro d0 d1 t0 t1
    refine (runs_elementary hx hl .identity d0 d0 t0).bind fun a n1 hl1 h1 => ?_
    generalize l ++ n1 = l1 at *
    unfold BNode.new
    refine (runs_setBlock hl1 h1 (by simp) (by simp) (by simp) (by simp) (by simp)).bind fun b new _ ⟨e, hb⟩ => ?_
    rw [e, hb]
    refine (runs_elementary hx hl1 .identity d1 d1 t1).bind fun c n2 hl2 h2 => ?_
    replace h1 := h1.extend hl1 n2
    generalize l1 ++ n2 = l2 at *
    refine (runs_setBlock hl2 h2 (by simp) (by simp) (by simp) (by simp) (by simp)).mono fun b new ⟨e, hb⟩ => ?_
    rw [e, hb]
    refine ⟨rfl, rfl, rfl, _, rfl, by simp, by simp, fun i => ?_⟩
    fin_cases i
    · exact ⟨a, by simp, h1.hasForm fun _ _ _ _ => hx.identity _ _⟩
    · exact ⟨c, by simp, h2.hasForm fun _ _ _ _ => hx.identity _ _⟩
  cases spaces with
  | other => exact (hs rfl).elim
  | dual =>
    refine (two (grid .BP1) (grid .DUAL) (grid .DUAL) (grid .BP1)).mono fun b new h => ?_
    exact ⟨![grid .BP1, grid .DUAL], ![grid .DUAL, grid .BP1], by simp, by simp, by simp, h⟩
  | maxwell =>
    refine (two (grid .BRWG) (grid .BC) (grid .RBC) (grid .BSNC)).mono fun b new h => ?_
    exact ⟨![grid .BRWG, grid .BC], ![grid .RBC, grid .BSNC], by simp, by simp, by simp, h⟩
  | linear =>
    unfold multitraceIdentity BNode.new
    refine (runs_elementary hx hl .identity _ _ _).bind fun a n1 hl1 h1 => ?_
    generalize l ++ n1 = l1 at *
    refine (runs_setBlock hl1 h1 (by simp) (by simp) (by simp) (by simp) (by simp)).bind fun b new _ ⟨e, hb⟩ => ?_
    rw [e, hb]
    refine (runs_setBlock hl1 h1 (by simp) (by simp) (by simp) (by simp) (by simp)).mono fun b new ⟨e, hb⟩ => ?_
    rw [e, hb]
    refine ⟨![grid .P1, grid .P1], ![grid .P1, grid .P1], by simp, by simp, by simp, rfl, rfl, rfl, _, rfl, by simp, by simp, fun i => ?_⟩
    fin_cases i
    · exact ⟨a, by simp, h1.hasForm fun _ _ _ _ => hx.identity _ _⟩
    · exact ⟨a, by simp, h1.hasForm fun _ _ _ _ => hx.identity _ _⟩

/-! ### Maxwell operators -/

/-- `electric_field` and `magnetic_field`: the form with the test function rotated to the `_hdiv_space`; without such a space a ValueError. -/
theorem C95_maxwell_field (hx : Exact lib S) (hn : Nested lib S) {rot : V →ₗ[ℝ] V} (hr : Rotates lib S rot) (hl : OpHeap lib l) (k : Label) (d r t : Space)
    (useProjectionSpaces : Bool) :
    (lib.spaces.hdiv t ≠ none → Runs lib (maxwellField lib k d r t useProjectionSpaces) l fun i l' =>
      HasForm lib l' i d r t (S.galerkin lib.core (fun v w => S.form k (rot v) w) t d)) ∧
    (lib.spaces.hdiv t = none → maxwellField lib k d r t useProjectionSpaces l = .error .ValueError) := by
  constructor
  · intro h
    obtain ⟨t', ht⟩ := Option.ne_none_iff_exists'.mp h
    exact (runs_maxwellField hx hn hr hl k d r t t' ht useProjectionSpaces).mono fun _ _ h => h.hasForm fun _ _ _ _ => rfl
  · intro h
    unfold maxwellField
    rw [h]

/-- `maxwell.multitrace_operator`, with and without a target grid. -/
theorem C95_maxwell_multitrace (hx : Exact lib S) (hn : Nested lib S) {rot : V →ₗ[ℝ] V} (hr : Rotates lib S rot) {source target : SpaceName → Space}
    (hs : FieldSpaces lib S source) (ht : FieldSpaces lib S target) (hd : lib.spaces.hdiv (target .fineSNC) ≠ none) (hl : OpHeap lib l) :
    Runs lib (maxwellMultitrace lib source target) l fun b l' => HasBlocks lib S l' b ![source .BRWG, source .BC] ![target .BRWG, target .BC] ![target .RBC, target .BSNC]
      ![![fun v w => S.form .mfie (rot v) w, fun v w => S.form .efie (rot v) w], ![fun v w => -S.form .efie (rot v) w, fun v w => S.form .mfie (rot v) w]] :=
  runs_maxwellMultitrace hx hn hr hs ht (Option.ne_none_iff_exists'.mp hd) hl

/-- `calderon_electric_field`: the first operator is the product of the electric field operators on the dual and on the primal space, with the
inverse of the matrix between the space `BC` and the dual space `B-SNC`; the second is the operator on the dual space. -/
theorem C95_efie_squared (hx : Exact lib S) (hn : Nested lib S) {rot : V →ₗ[ℝ] V} (hr : Rotates lib S rot) {grid : SpaceName → Space}
    (hs : FieldSpaces lib S grid) (hd : lib.spaces.hdiv (grid .fineSNC) ≠ none) (hl : OpHeap lib l)
    (X : Matrix (Fin (lib.core.dofs (grid .BC))) (Fin (lib.core.dofs (grid .BSNC))) ℂ)
    (h1 : S.galerkin lib.core (fun v w => S.ip v w) (grid .BSNC) (grid .BC) * X = 1) (h2 : X * S.galerkin lib.core (fun v w => S.ip v w) (grid .BSNC) (grid .BC) = 1) :
    Runs lib (efieSquared lib grid) l fun p l' =>
      HasForm lib l' p.1 (grid .BRWG) (grid .BRWG) (grid .BSNC) (S.galerkin lib.core (fun v w => S.form .efie (rot v) w) (grid .BSNC) (grid .BRWG)) ∧
      HasForm lib l' p.2 (grid .BC) (grid .BRWG) (grid .RBC) (S.galerkin lib.core (fun v w => S.form .efie (rot v) w) (grid .RBC) (grid .BC)) ∧
      ∀ τ e1 e2 op1 op2, Formula lib.core (nodesOf l') τ p.1 e1 → Formula lib.core (nodesOf l') τ p.2 e2 → e1.eval = .ok op1 → e2.eval = .ok op2 →
        ∃ op, efieSquaredForm lib grid op2 op1 = .ok op ∧ Acts op (S.galerkin lib.core (fun v w => S.form .efie (rot v) w) (grid .RBC) (grid .BC) * X *
          S.galerkin lib.core (fun v w => S.form .efie (rot v) w) (grid .BSNC) (grid .BRWG)) := by
  refine (runs_efieSquared hx hn hr hs (Option.ne_none_iff_exists'.mp hd) hl).mono_heap fun p new hl' hp => ?_
  obtain ⟨hp1, hp2⟩ := hp
  refine ⟨hp1.hasForm fun _ _ _ _ => rfl, hp2.hasForm fun _ _ _ _ => rfl, fun τ e1 e2 op1 op2 f1 f2 v1 v2 => ?_⟩
  obtain ⟨u1, a1, a2, a3, -, a5⟩ := hp1.form τ
  obtain ⟨u2, b1, b2, b3, -, b5⟩ := hp2.form τ
  obtain rfl := (C84_formula_unique lib.core _ hl' τ p.1).unique f1 a1
  obtain rfl := (C84_formula_unique lib.core _ hl' τ p.2).unique f2 b1
  obtain ⟨m1, m2, m3, m4, m5⟩ := hx.mass (grid .BC) (grid .BSNC)
  obtain ⟨i1, i2⟩ := inverse_rect m3 m4 (B := S.galerkin lib.core (fun v w => S.ip v w) (grid .BSNC) (grid .BC)) (X := X) (fun i j => m5 i i.2 j j.2) h1 h2
  have hw : (Expr.inverse (lib.core.mass (grid .BC) (grid .BSNC))).Wellformed :=
    ⟨⟨m1, m2⟩, i2, by rw [m3]; exact hx.notOne _, by rw [m4]; exact hx.notOne _⟩
  obtain ⟨op, ho, hA⟩ := C82_expressions_partial (.mul (.mul e2 (.inverse (lib.core.mass (grid .BC) (grid .BSNC)))) e1) ⟨⟨b2, hw⟩, a2⟩
    (permitted_mul (permitted_mul b3 (permitted_inverse _)) a3) _ (.mul (.mul b5 i1) a5)
  refine ⟨op, ?_, hA⟩
  replace ho : (do
      let u ← (do
        let u ← e2.eval
        let v ← mkInverse (lib.core.mass (grid .BC) (grid .BSNC))
        u.mul v)
      let v ← e1.eval
      u.mul v) = Except.ok op := ho
  rw [v1, v2] at ho
  unfold efieSquaredForm
  cases hm : mkInverse (lib.core.mass (grid .BC) (grid .BSNC)) with
  | error x => rw [hm] at ho; cases ho
  | ok inv =>
    rw [hm] at ho
    exact ho

/-! ### Assembly -/

/-- The pair needs one integral operator, with `base_slp` none; multitrace operators need two, `calderon_electric_field` one. -/
theorem C95_integral_operators (hn : Numbered lib) (wave2 : Option Scalar) (grid target : SpaceName → Space) (p : Pairing) (hp : p ≠ .other) (base : Nat) :
    Creates lib (slpAndHyp lib wave2 grid p none) 1 ∧ Creates lib (slpAndHyp lib wave2 grid p (some base)) 0 ∧
    Creates lib (multitrace lib wave2 grid p none) 2 ∧ Creates lib (maxwellMultitrace lib grid target) 2 ∧ Creates lib (efieSquared lib grid) 1 := by
  have hop : ∀ {k : Label}, Label.Integral k → ∀ d r t u, Creates lib (operator lib wave2.isSome k d r t u) 1 := fun hk d r t u => creates_preprocess hk _ _ _ _ _
  have hpair : ∀ (d1 r1 t1 d2 r2 : Space) (b : Nat), Creates lib (do
      let slp ← project b d1 r1 t1
      let hyp ← hypersingular lib wave2 d2 r2 d2 (.op b) true
      pure (some (slp, hyp, b))) 0 := fun d1 r1 t1 d2 r2 b =>
    (creates_project _ _ _ _).bind (q := 0) fun _ => (creates_hyp_op hn _ _ _ _ _).bind (q := 0) fun _ => Creates.pure _
  have hblock : ∀ b i j k, Creates lib (setBlock b i j k) 0 := by
    intro b i j k l x l' h
    unfold setBlock at h
    split at h
    · cases h; exact ⟨[], by simp, integrals_nil⟩
    · cases h
  have hneg : ∀ i, Creates lib (negate i) 0 := fun i => creates_allocWith fun nodes n h k hk => by cases h; cases hk
  have htr : ∀ i r, Creates lib (allocWith fun nodes => .ok (mkTranspose nodes i r)) 0 := fun i r => creates_allocWith fun nodes n h k hk => by cases h; cases hk
  have hmax : ∀ {k : Label}, Label.Integral k → ∀ d r t u, Creates lib (maxwellField lib k d r t u) 1 := by
    intro k hk d r t u
    unfold maxwellField
    split
    · intro l x l' h; cases h
    · exact (creates_preprocess hk _ _ _ _ _).bind (q := 0) fun _ => creates_rewrite _ _ _ _
  have hslp : Label.Integral .slp := Or.inl rfl
  have hdlp : Label.Integral .dlp := Or.inr (Or.inl rfl)
  have hefie : Label.Integral .efie := by unfold Label.Integral; simp
  have hmfie : Label.Integral .mfie := by unfold Label.Integral; simp
  refine ⟨?_, ?_, ?_, ?_, ?_⟩
  · cases p with
    | other => exact (hp rfl).elim
    | linear => exact (hop hslp _ _ _ _).bind (q := 0) fun _ => hpair _ _ _ _ _ _
    | dual => exact (hop hslp _ _ _ _).bind (q := 0) fun _ => hpair _ _ _ _ _ _
  · cases p with
    | other => exact (hp rfl).elim
    | linear => exact (Creates.pure base).bind (q := 0) fun _ => hpair _ _ _ _ _ _
    | dual => exact (Creates.pure base).bind (q := 0) fun _ => hpair _ _ _ _ _ _
  · cases p with
    | other => exact (hp rfl).elim
    | linear =>
      exact (hop hslp _ _ _ _).bind (q := 1) fun _ => (creates_project _ _ _ _).bind (q := 1) fun _ => (hop hdlp _ _ _ _).bind (q := 0) fun _ =>
        (htr _ _).bind (q := 0) fun _ => (creates_hyp_op hn _ _ _ _ _).bind (q := 0) fun _ => (hneg _).bind (q := 0) fun _ =>
        (hblock _ _ _ _).bind (q := 0) fun _ => (hblock _ _ _ _).bind (q := 0) fun _ => (hblock _ _ _ _).bind (q := 0) fun _ => hblock _ _ _ _
    | dual =>
      exact (hop hslp _ _ _ _).bind (q := 1) fun _ => (hop hdlp _ _ _ _).bind (q := 0) fun _ => (creates_project _ _ _ _).bind (q := 0) fun _ =>
        (htr _ _).bind (q := 0) fun _ => (creates_project _ _ _ _).bind (q := 0) fun _ => (creates_project _ _ _ _).bind (q := 0) fun _ =>
        (hblock _ _ _ _).bind (q := 0) fun _ => (creates_hyp_op hn _ _ _ _ _).bind (q := 0) fun _ => (hblock _ _ _ _).bind (q := 0) fun _ =>
        (hneg _).bind (q := 0) fun _ => (hblock _ _ _ _).bind (q := 0) fun _ => hblock _ _ _ _
  · exact (hmax hefie _ _ _ _).bind (q := 1) fun _ => (hmax hmfie _ _ _ _).bind (q := 0) fun _ => (creates_project _ _ _ _).bind (q := 0) fun _ =>
      (hblock _ _ _ _).bind (q := 0) fun _ => (creates_project _ _ _ _).bind (q := 0) fun _ => (hblock _ _ _ _).bind (q := 0) fun _ =>
      (creates_project _ _ _ _).bind (q := 0) fun _ => (hneg _).bind (q := 0) fun _ => (hblock _ _ _ _).bind (q := 0) fun _ =>
      (creates_project _ _ _ _).bind (q := 0) fun _ => hblock _ _ _ _
  · exact (hmax hefie _ _ _ _).bind (q := 0) fun _ => (creates_project _ _ _ _).bind (q := 0) fun _ => (creates_project _ _ _ _).bind (q := 0) fun _ => Creates.pure _

/-- Operators with these matrices return them: in any sequence of requests of weak and strong forms, also of other operators and while
parameters change, each `weak_form()` of operator `i` returns an operator that acts as its matrix. -/
theorem C95_histories (hl : OpHeap lib l) (ha : ∀ k t, ∃ op, (lib.core.form k t).eval = .ok op) {i : Nat} {d r t : Space}
    {M : Matrix (Fin (lib.core.dofs t)) (Fin (lib.core.dofs d)) ℂ} (h : HasForm lib l i d r t M) (actions : List Action) (hc : ∀ a ∈ actions, a.Cached) (n : Nat)
    (hn : actions[n]? = some (.weakForm false i)) : ∃ op, (run lib.core (nodesOf l) actions World.fresh).1[n]? = some (some (.ok op)) ∧ Acts op M := by
  obtain ⟨-, τ, -, -, hf⟩ := C84_histories lib.core (nodesOf l) hl ha actions hc
  have hlen := hf.length_eq
  have hlt : n < actions.length := (List.getElem?_eq_some_iff.mp hn).1
  have hlt' : n < (run lib.core (nodesOf l) actions World.fresh).1.length := by omega
  have hr := (List.forall₂_iff_get.mp hf).2 n hlt hlt'
  have he : actions.get ⟨n, hlt⟩ = .weakForm false i := by
    have := (List.getElem?_eq_some_iff.mp hn).2
    simpa using this
  rw [he] at hr
  obtain ⟨s, hs, e, h1, h2⟩ := hr
  obtain ⟨e', op, g1, -, -, -, g5, g6⟩ := h.form τ
  obtain rfl := (C84_formula_unique lib.core _ hl τ i).unique h1 g1
  refine ⟨op, ?_, g6⟩
  rw [List.getElem?_eq_getElem hlt']
  have hs' : (run lib.core (nodesOf l) actions World.fresh).1[n] = some s := by simpa using hs
  rw [hs', (h2 op).mpr g5]

end

end Verif.PyOp
