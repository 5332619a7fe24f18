import Verif.Model.PyBlockedBoundary
/-
Model of the functions of the Python layer that construct boundary operators from others: python/bempp/api/operators/boundary/_common.py,
`hypersingular`, `single_layer_and_hypersingular_pair` and `multitrace_operator` of laplace.py and modified_helmholtz.py (helmholtz.py calls
the latter), maxwell.py, `multitrace_identity` of sparse.py, `project_operator` of python/bempp/api/space/projection.py.

Operators are allocated in a list of nodes (see Verif.Model.PyBoundary); the functions return the numbers of their results.  Not modelled:
labels, symmetry flags, `assemble_only_singular_part`; parameters other than the assembly type.
-/
namespace Verif.PyOp
noncomputable section

/-- The attributes of spaces: `super_space`, `discontinuous_space`, `is_barycentric`, `non_barycentric_space` (`none` if
`has_non_barycentric_space` is false), `_hdiv_space` (`none` if there is no such attribute) (`space/space.py:170-225`). -/
structure Spaces where
  superSpace : Space → Space
  discontinuous : Space → Space
  barycentric : Space → Bool
  nonBarycentric : Space → Option Space
  hdiv : Space → Option Space

/-- The elementary operators: integral operators, and local operators made from functors. -/
inductive Label where
  | slp | dlp | adlp | hyp | efie | mfie | identity | rankOne
  | curl (component : Nat)
  | normal (component : Nat)
deriving DecidableEq

/-- The core library, the spaces, the number of each elementary operator with given domain and dual space, the assembly type
(`boundary_operator_assembly_type == 'dense'`), and Python's recursion limit. -/
structure Library where
  core : Core
  spaces : Spaces
  number : Label → (domain dualToRange : Space) → Nat
  dense : Bool
  limit : Nat

/-- A program that creates operators. -/
abbrev Build (α : Type) := StateT (List Node) (Except Exn) α

/-- The operators by number. -/
def nodesOf (l : List Node) (i : Nat) : Node := l.getD i ⟨.zero, 0, 0, 0⟩

/-- A new operator. -/
def alloc (n : Node) : Build Nat := fun l => .ok (l.length, l ++ [n])

/-- An operation whose operands are existing operators. -/
def allocWith (f : (Nat → Node) → Res Node) : Build Nat := fun l =>
  match f (nodesOf l) with
  | .ok n => .ok (l.length, l ++ [n])
  | .error e => .error e

/-- `ElementaryBoundaryOperator(...)`, `LocalBoundaryOperator(...)`, `RankOneBoundaryOperator(...)`. -/
def elementary (lib : Library) (k : Label) (domain range dualToRange : Space) : Build Nat :=
  alloc ⟨.elementary (lib.number k domain dualToRange), domain, range, dualToRange⟩

/-- `rewrite_operator_spaces` (`projection.py:15-28`). -/
def rewriteSpaces (i : Nat) (domain range dualToRange : Space) : Build Nat := alloc (mkRewrite i domain range dualToRange)

/-- `project_operator` (`projection.py:30-53`). -/
def project (i : Nat) (domain range dualToRange : Space) : Build Nat := fun l =>
  match mkProjection (nodesOf l) i (some domain) (some range) (some dualToRange) with
  | some n => .ok (l.length, l ++ [n])
  | none => .ok (i, l)

/-- `-op`. -/
def negate (i : Nat) : Build Nat := allocWith fun nodes => .ok (mkScaled nodes i ⟨-1, false⟩)

/-- `check_for_non_barycentric_spaces` (`_common.py:14-21`): the two non-barycentric spaces. -/
def nonBarycentricSpaces (lib : Library) (domain dualToRange : Space) : Option (Space × Space) :=
  if lib.spaces.barycentric domain && lib.spaces.barycentric dualToRange then
    match lib.spaces.nonBarycentric domain, lib.spaces.nonBarycentric dualToRange with
    | some d, some t => some (d, t)
    | _, _ => none
  else none

/-- `get_wave_operator_with_space_preprocessing` (`_common.py:65-98`), and `get_operator_with_space_preprocessing` (`_common.py:25-62`) after its
test of the assembly type; the first argument bounds the depth of the recursion. -/
def preprocess (lib : Library) : Nat → Label → (domain range dualToRange : Space) → (useProjectionSpaces : Bool) → Build Nat
  | 0, _, _, _, _, _ => fun _ => .error .RuntimeError
  | n + 1, k, domain, range, dualToRange, useProjectionSpaces =>
    match nonBarycentricSpaces lib domain dualToRange with
    | some (d, t) => do
      let i ← preprocess lib n k d range t useProjectionSpaces
      rewriteSpaces i domain range dualToRange
    | none =>
      if useProjectionSpaces then do
        let i ← elementary lib k (lib.spaces.superSpace domain) range (lib.spaces.superSpace dualToRange)
        project i domain range dualToRange
      else elementary lib k domain range dualToRange

/-- `single_layer`, `double_layer`, `adjoint_double_layer` of laplace.py (`wave = false`) or modified_helmholtz.py (`wave = true`)
(`laplace.py:81-206`, `modified_helmholtz.py:87-218`; the wave version does not look at the assembly type). -/
def operator (lib : Library) (wave : Bool) (k : Label) (domain range dualToRange : Space) (useProjectionSpaces : Bool) : Build Nat :=
  preprocess lib lib.limit k domain range dualToRange (useProjectionSpaces && (wave || !lib.dense))

/-- The argument `use_slp`. -/
inductive UseSlp where
  | no | yes | op (i : Nat)

/-- `compound_op += op.dual_product(slp) * op`, or with a factor: `compound_op += (factor * op.dual_product(slp)) * op`
(`laplace.py:300`, `modified_helmholtz.py:315, 325-326`). -/
def addSandwich (lib : Library) (factor : Option Scalar) (slp : Nat) (compound : Nat) (op : Nat) : Build Nat := do
  let a ← allocWith fun nodes => mkDualProduct lib.core nodes op slp
  let a ← match factor with
    | none => pure a
    | some c => allocWith fun nodes => .ok (mkScaled nodes a c)
  let b ← allocWith fun nodes => mkProduct lib.core nodes a op
  allocWith fun nodes => mkSum lib.core nodes compound b

/-- One pass of `for i in range(3)` (`laplace.py:290-300`, `modified_helmholtz.py:305-326`); `wave2` is the square of the wave number. -/
def compoundStep (lib : Library) (wave2 : Option Scalar) (domain slpDomain : Space) (slp : Nat) (compound c : Nat) : Build Nat := do
  let curl ← elementary lib (.curl c) domain slpDomain slpDomain
  let compound ← addSandwich lib none slp compound curl
  match wave2 with
  | none => pure compound
  | some w =>
    let normal ← elementary lib (.normal c) domain slpDomain slpDomain
    addSandwich lib (some w) slp compound normal

/-- `hypersingular` of laplace.py (`wave2 = none`) or modified_helmholtz.py (`laplace.py:209-308`, `modified_helmholtz.py:221-334`). -/
def hypersingular (lib : Library) (wave2 : Option Scalar) (domain range dualToRange : Space) (useSlp : UseSlp) (useProjectionSpaces : Bool) : Build Nat :=
  let useSlp := if domain ≠ dualToRange then .no else useSlp
  match useSlp with
  | .no => operator lib wave2.isSome .hyp domain range dualToRange useProjectionSpaces
  | s => do
    let slp ← match s with
      | .op i => pure i
      | _ => operator lib wave2.isSome .slp (lib.spaces.discontinuous domain) range (lib.spaces.discontinuous domain) true
    let l ← get
    let n := nodesOf l slp
    let compound ← alloc ⟨.zero, domain, n.range, dualToRange⟩
    let compound ← [0, 1, 2].foldlM (compoundStep lib wave2 domain n.domain slp) compound
    rewriteSpaces compound domain range dualToRange

/-- The spaces `function_space(grid, ...)` that the compound operators use, and those on `grid.barycentric_grid()` (`fine...`). -/
inductive SpaceName where
  | P1 | DP1 | DUAL | BP1 | fineDP0 | fineDP1 | BRWG | BC | RBC | BSNC | fineRWG | fineSNC
deriving DecidableEq

/-- The value of `spaces`. -/
inductive Pairing where
  | linear | dual | other
deriving DecidableEq

/-- `slp_and_hyp_impl` (`_common.py:102-168`): the pair and the base operator; `none` is `None`, which is returned for an unknown value of
`spaces`. -/
def slpAndHyp (lib : Library) (wave2 : Option Scalar) (grid : SpaceName → Space) (spaces : Pairing) (baseSlp : Option Nat) : Build (Option (Nat × Nat × Nat)) :=
  match spaces with
  | .linear => do
    let disc := grid .DP1
    let lin := grid .P1
    let base ← match baseSlp with
      | some i => pure i
      | none => operator lib wave2.isSome .slp disc disc disc true
    let slp ← project base lin lin lin
    let hyp ← hypersingular lib wave2 lin lin lin (.op base) true
    pure (some (slp, hyp, base))
  | .dual => do
    let const := grid .DUAL
    let lin := grid .BP1
    let disc := if wave2.isSome then grid .fineDP1 else grid .fineDP0
    let base ← match baseSlp with
      | some i => pure i
      | none => operator lib wave2.isSome .slp disc disc disc true
    let slp ← project base const lin const
    let hyp ← hypersingular lib wave2 lin const lin (.op base) true
    pure (some (slp, hyp, base))
  | .other => pure none

/-- `single_layer_and_hypersingular_pair` of laplace.py with `stabilization_factor` (`laplace.py:312-371`); `list(None)` is a TypeError.  The
operators of the result are `slp`, `hyp` and the base operator. -/
def laplacePair (lib : Library) (grid : SpaceName → Space) (spaces : Pairing) (baseSlp : Option Nat) (stabilization : Option Scalar) : Build (Nat × Nat × Nat) := do
  let ops ← slpAndHyp lib none grid spaces baseSlp
  match ops with
  | none => fun _ => .error .TypeError
  | some (slp, hyp, base) =>
    match stabilization with
    | none => pure (slp, hyp, base)
    | some c => do
      let l ← get
      let n := nodesOf l hyp
      let one ← elementary lib .rankOne n.domain n.range n.dualToRange
      let scaled ← allocWith fun nodes => .ok (mkScaled nodes one c)
      let hyp ← allocWith fun nodes => mkSum lib.core nodes hyp scaled
      pure (slp, hyp, base)

/-- The spaces of operators as blocked operators see them. -/
def componentsOf (l : List Node) : Components :=
  ⟨fun i => (nodesOf l i).domain, fun i => (nodesOf l i).range, fun i => (nodesOf l i).dualToRange, fun _ => .zero 0 0⟩

/-- `blocked[i, j] = op`. -/
def setBlock (b : BNode) (i j op : Nat) : Build BNode := fun l =>
  match b.setItem (componentsOf l) i j op with
  | .ok b' => .ok (b', l)
  | .error e => .error e

/-- `blocked[0, 0] = ...`, and so on. -/
def setBlocks (b00 b01 b10 b11 : Nat) : Build BNode := do
  let b ← setBlock (BNode.new 2 2) 0 0 b00
  let b ← setBlock b 0 1 b01
  let b ← setBlock b 1 0 b10
  setBlock b 1 1 b11

/-- `multitrace_operator_impl_lin` (`_common.py:236-265`). -/
def multitraceLin (lib : Library) (wave2 : Option Scalar) (grid : SpaceName → Space) : Build BNode := do
  let lin := grid .P1
  let disc := grid .DP1
  let base ← operator lib wave2.isSome .slp disc disc disc true
  let slp ← project base lin lin lin
  let dlp ← operator lib wave2.isSome .dlp lin lin lin true
  let adlp ← allocWith fun nodes => .ok (mkTranspose nodes dlp lin)
  let hyp ← hypersingular lib wave2 lin lin lin (.op base) true
  let minus ← negate dlp
  setBlocks minus slp hyp adlp

/-- `multitrace_operator_impl_dual` (`_common.py:268-313`); the order of the assignments is that of the code. -/
def multitraceDual (lib : Library) (wave2 : Option Scalar) (grid : SpaceName → Space) : Build BNode := do
  let const := grid .DUAL
  let lin := grid .BP1
  let disc := grid .fineDP1
  let slpSpace := if wave2.isSome then disc else grid .fineDP0
  let base ← operator lib wave2.isSome .slp slpSpace slpSpace slpSpace true
  let dlpDisc ← operator lib wave2.isSome .dlp disc disc disc true
  let dlp ← project dlpDisc lin lin const
  let transposed ← allocWith fun nodes => .ok (mkTranspose nodes dlpDisc const)
  let adlp ← project transposed const const lin
  let slp ← project base const lin const
  let b ← setBlock (BNode.new 2 2) 0 1 slp
  let hyp ← hypersingular lib wave2 lin const lin (.op base) true
  let b ← setBlock b 1 0 hyp
  let minus ← negate dlp
  let b ← setBlock b 0 0 minus
  setBlock b 1 1 adlp

/-- The branch of `multitrace_operator_impl` for another target grid (`_common.py:175-222`); the arguments are the spaces for the Dirichlet
and the Neumann data on both grids (both "P" for 'linear', "B-P" and "DUAL" for 'dual'). -/
def multitraceTarget (lib : Library) (wave2 : Option Scalar) (source target : SpaceName → Space) (dirichlet neumann : SpaceName) : Build BNode := do
  let slp ← operator lib wave2.isSome .slp (source neumann) (target dirichlet) (target neumann) true
  let dlp ← operator lib wave2.isSome .dlp (source dirichlet) (target dirichlet) (target neumann) true
  let back ← operator lib wave2.isSome .dlp (target dirichlet) (source dirichlet) (source neumann) true
  let adlp ← allocWith fun nodes => .ok (mkTranspose nodes back (target neumann))
  let hyp ← hypersingular lib wave2 (source dirichlet) (target neumann) (target dirichlet) .no true
  let minus ← negate dlp
  setBlocks minus slp hyp adlp

/-- `multitrace_operator` of laplace.py and modified_helmholtz.py (`_common.py:171-233`); `target` is `none` also if it equals the grid. -/
def multitrace (lib : Library) (wave2 : Option Scalar) (grid : SpaceName → Space) (spaces : Pairing) (target : Option (SpaceName → Space)) : Build BNode :=
  match target, spaces with
  | none, .linear => multitraceLin lib wave2 grid
  | none, .dual => multitraceDual lib wave2 grid
  | some t, .linear => multitraceTarget lib wave2 grid t .P1 .P1
  | some t, .dual => multitraceTarget lib wave2 grid t .BP1 .DUAL
  | _, .other => fun _ => .error .ValueError

/-- `electric_field` (`k = .efie`) and `magnetic_field` (`k = .mfie`) (`maxwell.py:44-93, 143-194`). -/
def maxwellField (lib : Library) (k : Label) (domain range dualToRange : Space) (useProjectionSpaces : Bool) : Build Nat :=
  match lib.spaces.hdiv dualToRange with
  | none => fun _ => .error .ValueError
  | some t => do
    let i ← preprocess lib lib.limit k domain range t useProjectionSpaces
    rewriteSpaces i domain range dualToRange

/-- `multitrace_operator` of maxwell.py (`maxwell.py:197-257`); without a target grid both grids are the same. -/
def maxwellMultitrace (lib : Library) (source target : SpaceName → Space) : Build BNode := do
  let efie ← maxwellField lib .efie (source .fineRWG) (target .fineRWG) (target .fineSNC) true
  let mfie ← maxwellField lib .mfie (source .fineRWG) (target .fineRWG) (target .fineSNC) true
  let b00 ← project mfie (source .BRWG) (target .BRWG) (target .RBC)
  let b ← setBlock (BNode.new 2 2) 0 0 b00
  let b01 ← project efie (source .BC) (target .BRWG) (target .RBC)
  let b ← setBlock b 0 1 b01
  let e ← project efie (source .BRWG) (target .BC) (target .BSNC)
  let b10 ← negate e
  let b ← setBlock b 1 0 b10
  let b11 ← project mfie (source .BC) (target .BC) (target .BSNC)
  setBlock b 1 1 b11

/-- The operators `_efie` and `_efie2` that the constructor of `EfieSquared` creates (`maxwell.py:102-131`). -/
def efieSquared (lib : Library) (grid : SpaceName → Space) : Build (Nat × Nat) := do
  let fine ← maxwellField lib .efie (grid .fineRWG) (grid .fineRWG) (grid .fineSNC) true
  let efie ← project fine (grid .BRWG) (grid .BRWG) (grid .BSNC)
  let efie2 ← project fine (grid .BC) (grid .BRWG) (grid .RBC)
  pure (efie, efie2)

/-- `_weak_form_impl` of `EfieSquared` (`maxwell.py:133-138`), given the weak forms of `_efie2` and `_efie`. -/
def efieSquaredForm (lib : Library) (grid : SpaceName → Space) (efie2 efie : Op) : Res Op := do
  let inv ← mkInverse (lib.core.mass (grid .BC) (grid .BSNC))
  let p ← efie2.mul inv
  p.mul efie

/-- The value of `spaces` in `multitrace_identity`. -/
inductive IdentityPairing where
  | linear | dual | maxwell | other
deriving DecidableEq

/-- `multitrace_identity` (`sparse.py:137-191`). -/
def multitraceIdentity (lib : Library) (grid : SpaceName → Space) (spaces : IdentityPairing) : Build BNode :=
  match spaces with
  | .dual => do
    let a ← elementary lib .identity (grid .BP1) (grid .BP1) (grid .DUAL)
    let b ← setBlock (BNode.new 2 2) 0 0 a
    let c ← elementary lib .identity (grid .DUAL) (grid .DUAL) (grid .BP1)
    setBlock b 1 1 c
  | .linear => do
    let a ← elementary lib .identity (grid .P1) (grid .P1) (grid .P1)
    let b ← setBlock (BNode.new 2 2) 0 0 a
    setBlock b 1 1 a
  | .maxwell => do
    let a ← elementary lib .identity (grid .BRWG) (grid .BRWG) (grid .RBC)
    let b ← setBlock (BNode.new 2 2) 0 0 a
    let c ← elementary lib .identity (grid .BC) (grid .BC) (grid .BSNC)
    setBlock b 1 1 c
  | .other => fun _ => .error .ValueError

end

end Verif.PyOp
