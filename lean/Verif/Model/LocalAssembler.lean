import Verif.Model.QuadratureSelector
import Verif.Model.MatData
import Mathlib.Data.List.Dedup
/-
Model of lib/fiber/default_local_assembler_for_integral_operators_on_surfaces_imp.hpp: the cache of singular integrals and
the four forms of `evaluateLocalWeakForms`.

`D`: descriptors of quadrature rules, standing for the integrators (`getIntegrator` returns one integrator per descriptor,
property C65).  `S`: shapesets, compared by address.  `K`: numbers.
-/
namespace Verif.LocalAsm

open Verif.Quad Verif.HMat

/-- `CallVariant` (`lib/fiber/types.hpp`). -/
inductive CallVariant where
  | TEST_TRIAL
  | TRIAL_TEST
deriving DecidableEq, Repr

/-- One entry of the cache: `first` is the index of the test element, `none` for `INVALID_INDEX`; `second` is the matrix. -/
structure CacheCell (K : Type) where
  first : Option Nat
  second : Mx K

/-- `m_cache`: `_2dArray<std::pair<int, Matrix>>` with `rows = extent(0)` and `cols = extent(1)`. -/
structure Cache (K : Type) where
  rows : Nat
  cols : Nat
  cell : Nat → Nat → CacheCell K

/-- A default-constructed cache. -/
def Cache.empty {K : Type} [Zero K] : Cache K := ⟨0, 0, fun _ _ => ⟨none, ⟨0, 0, fun _ _ => 0⟩⟩⟩

/-- The loop that looks for a matrix in the cache (`:174-200` and `:281-288`). -/
def Cache.lookup {K : Type} (c : Cache K) (testElement trialElement : Nat) : Option (Mx K) :=
  ((List.range c.rows).find? fun n => decide ((c.cell n trialElement).first = some testElement)).map fun n =>
    (c.cell n trialElement).second

/-- The members of the assembler that matter here.  `select` is the descriptor selector (`none`: it throws), `form` is the
matrix of integrals over a pair of elements that the integrator of a descriptor computes for two shapesets. -/
structure Assembler (D S K : Type) where
  testGrid : RawGeometry
  trialGrid : RawGeometry
  vertexCount : Nat
  identical : Bool
  testShapeset : Nat → S
  trialShapeset : Nat → S
  select : Nat → Nat → ℝ → Option D
  form : D → S → S → Nat → Nat → Mx K

section
variable {D S K : Type} [DecidableEq D] [DecidableEq S] [Zero K]

/-! ### Pairs of adjacent elements -/

/-- `elementsAdjacentToVertex[index].push_back(e)` for all elements and corners; `none`: index out of bounds
(`findPairsOfAdjacentElements`, `:447-457`). -/
def elementsAdjacentToVertex (g : RawGeometry) (vertexCount : Nat) : Option (List (List Nat)) :=
  ((List.range g.elementCount).flatMap fun e => (g.corners e).map fun index => (e, index)).foldlM
    (fun (acc : List (List Nat)) p =>
      if p.2 < 0 then some acc
      else if p.2.toNat < acc.length then some (acc.modify p.2.toNat fun l => l ++ [p.1]) else none)
    (List.replicate vertexCount [])

/-- `alternative_less`: by the trial element, then by the test element
(`default_local_assembler_for_integral_operators_on_surfaces.hpp:127-133`). -/
def pairLess (a b : Nat × Nat) : Bool :=
  decide (a.2 < b.2) || (!decide (b.2 < a.2) && decide (a.1 < b.1))

/-- `pairs.insert` of an element that compares different from all those present: a `std::set` ordered by `pairLess`. -/
def pairInsert (p : Nat × Nat) : List (Nat × Nat) → List (Nat × Nat)
  | [] => [p]
  | q :: l => if pairLess p q then p :: q :: l else if pairLess q p then q :: pairInsert p l else q :: l

/-- `findPairsOfAdjacentElements` (`:426-470`). -/
def Assembler.adjacentPairs (A : Assembler D S K) : Option (List (Nat × Nat)) :=
  if !A.identical then some []
  else (elementsAdjacentToVertex A.testGrid A.vertexCount).map fun adj =>
    (adj.flatMap fun l => l.flatMap fun e1 => l.map fun e2 => (e1, e2)).foldl (fun s p => pairInsert p s) []

/-! ### The cache -/

/-- `maxNeighbourCount`: the longest run of equal trial elements (`:484-500`). -/
def maxNeighbourCount : List (Nat × Nat) → Nat
  | [] => 0
  | p :: l => max (1 + (l.takeWhile fun q => q.2 == p.2).length) (maxNeighbourCount (l.dropWhile fun q => q.2 == p.2))
termination_by l => l.length
decreasing_by
  have := (List.dropWhile_sublist (fun q : Nat × Nat => q.2 == p.2) (l := l)).length_le
  simp only [List.length_cons]
  omega

/-- The row and column of the cache for each pair, in the order of the set (`:555-575`). -/
def cachePositions (neighbourIndex curTrialElementIndex : Nat) : List (Nat × Nat) → List (Nat × Nat)
  | [] => []
  | p :: l =>
    if p.2 ≠ curTrialElementIndex then (0, p.2) :: cachePositions 1 p.2 l
    else (neighbourIndex, curTrialElementIndex) :: cachePositions (neighbourIndex + 1) curTrialElementIndex l

/-- Writing an entry of the cache; `none`: out of bounds. -/
def Cache.write (c : Cache K) (pos : Nat × Nat) (v : CacheCell K) : Option (Cache K) :=
  if pos.1 < c.rows ∧ pos.2 < c.cols then
    some { c with cell := fun n t => if n = pos.1 ∧ t = pos.2 then v else c.cell n t }
  else none

/-- The set of pairs with their quadrature variants; `none`: the selector throws (`:516-530`). -/
def Assembler.pairVariants (A : Assembler D S K) (pairs : List (Nat × Nat)) : Option (List (D × S × S)) :=
  pairs.mapM fun p => (A.select p.1 p.2 (-1)).map fun d => (d, A.testShapeset p.1, A.trialShapeset p.2)

/-- The entries written for one variant: `first` by the loop `:555-575`, `second` by the integrator. -/
def Assembler.variantWrites (A : Assembler D S K) (pairs : List (Nat × Nat)) (variants : List (D × S × S))
    (active : D × S × S) : List ((Nat × Nat) × CacheCell K) :=
  match pairs with
  | [] => []
  | p₀ :: _ =>
    (pairs.zip (variants.zip (cachePositions 0 p₀.2 pairs))).filterMap fun x =>
      if x.2.1 = active then
        some (x.2.2, ⟨some x.1.1, A.form active.1 active.2.1 active.2.2 x.1.1 x.1.2⟩)
      else none

/-- A run of `cacheLocalWeakForms` (`:472-600`) for the pairs `pairs`, ending with the cache `r` (`none`: an exception or an
access out of bounds).  `order` is the order of the set of variants (by addresses: any order), `writes` the order in which
the entries are written: `tbb::parallel_for` may take the pairs of a variant in any order (here even those of different
variants may be interleaved). -/
def Assembler.CacheRun (A : Assembler D S K) (pairs : List (Nat × Nat)) (r : Option (Cache K)) : Prop :=
  if pairs.isEmpty then r = some Cache.empty
  else
    match A.pairVariants pairs with
    | none => r = none
    | some variants =>
      ∃ (order : List (D × S × S)) (writes : List ((Nat × Nat) × CacheCell K)),
        order.Nodup ∧ (∀ v, v ∈ order ↔ v ∈ variants) ∧
        writes.Perm (order.flatMap (A.variantWrites pairs variants)) ∧
        r = writes.foldlM (fun c w => c.write w.1 w.2)
          (⟨maxNeighbourCount pairs, A.trialGrid.elementCount, fun _ _ => ⟨none, ⟨0, 0, fun _ _ => 0⟩⟩⟩ : Cache K)

/-- The constructor (`:79-126`): it ends with the cache `r`, or throws or has undefined behaviour (`none`). -/
def Assembler.Constructed (A : Assembler D S K) (cacheSingularIntegrals : Bool) (r : Option (Cache K)) : Prop :=
  if cacheSingularIntegrals then
    match A.adjacentPairs with
    | none => r = none
    | some pairs => A.CacheRun pairs r
  else r = some Cache.empty

/-! ### Evaluation in batches -/

/-- The part common to the evaluation functions: the indices `idx` of results have variants (`none`: `CACHED`) and the
results of each variant other than `CACHED` are computed together, variant by variant in the order of the set (by
addresses: any order).  `value v i` is what the integrator of `v` writes to result `i` (`:203-250, 305-345`). -/
def runBatches {I V M : Type} [DecidableEq I] [DecidableEq V] (idx : List I) (variant : I → Option V) (value : V → I → M)
    (order : List (Option V)) (init : I → M) : I → M :=
  order.foldl (fun r v =>
    match v with
    | none => r
    | some v => (idx.filter fun i => variant i == some v).foldl (fun r i => Function.update r i (value v i)) r) init

/-- `cachedLocalWeakForm->col(j)`, `->row(j)` or the whole matrix; for the integrators the same part of the integrals. -/
def slice (callVariant : CallVariant) (localDofB : Option Nat) (m : Mx K) : Mx K :=
  match localDofB, callVariant with
  | none, _ => m
  | some j, .TEST_TRIAL => ⟨m.rows, 1, fun i _ => m.e i j⟩
  | some j, .TRIAL_TEST => ⟨1, m.cols, fun _ i => m.e j i⟩

/-- The test and trial elements of a call with elements A and B. -/
def testTrial (callVariant : CallVariant) (a b : Nat) : Nat × Nat :=
  match callVariant with
  | .TEST_TRIAL => (a, b)
  | .TRIAL_TEST => (b, a)

/-- The variants of a call: the outer `none` is an exception, the inner one `CACHED`. -/
def Assembler.listVariants (A : Assembler D S K) (c : Cache K) (callVariant : CallVariant) (elementsA : List Nat)
    (elementB : Nat) (nominal : ℝ) : Option (List (Option (D × S))) :=
  elementsA.mapM fun a =>
    let p := testTrial callVariant a elementB
    match c.lookup p.1 p.2 with
    | some _ => some none
    | none => (A.select p.1 p.2 nominal).map fun d =>
        some (d, match callVariant with | .TEST_TRIAL => A.testShapeset a | .TRIAL_TEST => A.trialShapeset a)

/-- `evaluateLocalWeakForms(callVariant, elementIndicesA, elementIndexB, localDofIndexB, result, nominalDistance)`
(`:149-252`).  `init` is the content of `result` before the call, `order` the order of the set of variants; `none`: an
exception. -/
def Assembler.evaluateList (A : Assembler D S K) (c : Cache K) (callVariant : CallVariant) (elementsA : List Nat)
    (elementB : Nat) (localDofB : Option Nat) (nominal : ℝ) (order : List (Option (D × S))) (init : Nat → Mx K) :
    Option (Nat → Mx K) :=
  (A.listVariants c callVariant elementsA elementB nominal).map fun variants =>
    let a (i : Nat) : Nat := elementsA.getD i 0
    let cached : Nat → Mx K := fun i =>
      if i < elementsA.length then
        match c.lookup (testTrial callVariant (a i) elementB).1 (testTrial callVariant (a i) elementB).2 with
        | some m => slice callVariant localDofB m
        | none => init i
      else init i
    runBatches (List.range elementsA.length) (fun i => (variants[i]?).join)
      (fun v i => slice callVariant localDofB
        (match callVariant with
         | .TEST_TRIAL => A.form v.1 v.2 (A.trialShapeset elementB) (a i) elementB
         | .TRIAL_TEST => A.form v.1 (A.testShapeset elementB) v.2 elementB (a i)))
      order cached

/-- The variant of a pair: the outer `none` is an exception, the inner one `CACHED`. -/
def Assembler.pairVariant (A : Assembler D S K) (c : Cache K) (nominal : ℝ) (e t : Nat) : Option (Option (D × S × S)) :=
  match c.lookup e t with
  | some _ => some none
  | none => (A.select e t nominal).map fun d => some (d, A.testShapeset e, A.trialShapeset t)

/-- The indices of a two-dimensional array, column by column. -/
def grid2 (rows cols : Nat) : List (Nat × Nat) :=
  (List.range cols).flatMap fun j => (List.range rows).map fun i => (i, j)

/-- `evaluateLocalWeakForms(testElementIndices, trialElementIndices, _2dArray result, nominalDistance)` (`:254-348`). -/
def Assembler.evaluate2d (A : Assembler D S K) (c : Cache K) (tests trials : List Nat) (nominal : ℝ)
    (order : List (Option (D × S × S))) (init : Nat × Nat → Mx K) : Option (Nat × Nat → Mx K) :=
  let e (x : Nat × Nat) : Nat := tests.getD x.1 0
  let t (x : Nat × Nat) : Nat := trials.getD x.2 0
  if (grid2 tests.length trials.length).all fun x => (A.pairVariant c nominal (e x) (t x)).isSome then
    let cached : Nat × Nat → Mx K := fun x =>
      if x ∈ grid2 tests.length trials.length then
        match c.lookup (e x) (t x) with
        | some m => m
        | none => init x
      else init x
    some (runBatches (grid2 tests.length trials.length) (fun x => (A.pairVariant c nominal (e x) (t x)).join)
      (fun v x => A.form v.1 v.2.1 v.2.2 (e x) (t x)) order cached)
  else none

/-- `evaluateLocalWeakForms(testElementIndex, trialElementIndex, result, nominalDistance)` (`:350-368`). -/
def Assembler.evaluateSingle (A : Assembler D S K) (c : Cache K) (e t : Nat) (nominal : ℝ)
    (order : List (Option (D × S × S))) : Option (Mx K) :=
  (A.evaluate2d c [e] [t] nominal order fun _ => ⟨0, 0, fun _ _ => 0⟩).map fun r => r (0, 0)

/-- `evaluateLocalWeakForms(testElementIndices, trialElementIndices, std::vector result, nominalDistance)` (`:370-402`); the
iterations of `tbb::parallel_for` write to different results.  `none`: an exception. -/
def Assembler.evaluatePaired (A : Assembler D S K) (c : Cache K) (tests trials : List Nat) (nominal : ℝ)
    (order : Nat → List (Option (D × S × S))) : Option (List (Mx K)) :=
  if tests.length ≠ trials.length then none
  else (List.range tests.length).mapM fun i =>
    A.evaluateSingle c (tests.getD i 0) (trials.getD i 0) nominal (order i)

end

end Verif.LocalAsm
