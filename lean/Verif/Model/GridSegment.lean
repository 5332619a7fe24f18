import Mathlib.Data.Finset.Sort
import Mathlib.Data.Int.Order.Basic
/-
Model of grid segments (lib/grid/grid_segment.cpp).  `std::set<int>` is a finite set; iterating over it
visits the elements in increasing order.
-/
namespace Verif.Grid

/-- `GridSegment`: `m_entityCounts[codim]` and `m_excludedEntities[codim]`, `0 ≤ codim < 4`
(`grid_segment.hpp`, `grid_segment.cpp:84-120`). -/
structure GridSegment where
  counts : Nat → Int
  excluded : Nat → Finset Int

/-- Outcome of a call that may throw. -/
inductive Throws where
  | invalidArgument
deriving DecidableEq, Repr

/-- `GridSegment::contains` (`grid_segment.cpp:285-293`). -/
def GridSegment.contains (s : GridSegment) (codim index : Int) : Except Throws Bool :=
  if codim < 0 ∨ codim > 3 then .error .invalidArgument
  else .ok (decide (index ≥ 0) && decide (index < s.counts codim.toNat) &&
    decide (index ∉ s.excluded codim.toNat))

/-- `GridSegment::markExcludedEntities` (`grid_segment.cpp:295-306`): the resulting vector `marks`
(length and entries).  The checked access `acc` asserts that excluded indices are in range; here
indices outside are ignored. -/
def GridSegment.markExcludedEntities (s : GridSegment) (codim mark : Int) : Except Throws (List Int) :=
  if codim < 0 ∨ codim > 3 then .error .invalidArgument
  else .ok ((s.excluded codim.toNat).sort (· ≤ ·) |>.foldl (fun marks i =>
    if 0 ≤ i then marks.set i.toNat mark else marks)
    (List.replicate (s.counts codim.toNat).toNat 0))

/-- The loop over `index` in `complement` (`grid_segment.cpp:311-317`): `it` is the rest of the sorted
sequence of excluded indices, `n` the number of remaining indices. -/
def complementLoop : (n : Nat) → (index : Int) → (it : List Int) → Finset Int → Finset Int
  | 0, _, _, acc => acc
  | n + 1, index, [], acc => complementLoop n (index + 1) [] (insert index acc)
  | n + 1, index, x :: it, acc =>
    if index < x then complementLoop n (index + 1) (x :: it) (insert index acc)
    else complementLoop n (index + 1) it acc

/-- `GridSegment::complement` (`grid_segment.cpp:308-323`). -/
def GridSegment.complement (s : GridSegment) : GridSegment :=
  ⟨s.counts, fun codim =>
    complementLoop (s.counts codim).toNat 0 ((s.excluded codim).sort (· ≤ ·)) ∅⟩

/-- `GridSegment::union_` (`grid_segment.cpp:325-338`). -/
def GridSegment.union_ (s t : GridSegment) : GridSegment :=
  ⟨s.counts, fun codim => s.excluded codim ∩ t.excluded codim⟩

/-- `GridSegment::intersection` (`grid_segment.cpp:345-358`). -/
def GridSegment.intersection (s t : GridSegment) : GridSegment :=
  ⟨s.counts, fun codim => s.excluded codim ∪ t.excluded codim⟩

/-- `GridSegment::difference` (`grid_segment.cpp:340-343`). -/
def GridSegment.difference (s t : GridSegment) : GridSegment := s.intersection t.complement

/-- An element as seen through the index set: its index, domain, for each codimension the indices of
its subentities (in local order), and for each local facet and codimension the indices of the
facet's children (`refElement.subEntity` followed by `subEntityIndex`). -/
structure Elem where
  index : Nat
  domain : Int
  sub : Nat → List Nat
  facetChildren : Nat → Nat → List Nat

/-- A grid view: dimension, entity counts and the elements in iteration order. -/
structure View where
  dim : Nat
  count : Nat → Nat
  elems : List Elem

/-- Codimensions `a, a+1, ..., dim`. -/
def codims (a dim : Nat) : List Nat := (List.range (dim + 1)).filter (a ≤ ·)

/-- Insert a list of indices in the set number `codim`. -/
def insertAll (ex : Nat → Finset Int) (codim : Nat) (l : List Nat) : Nat → Finset Int :=
  Function.update ex codim (l.foldl (fun (s : Finset Int) (i : Nat) => insert (i : Int) s) (ex codim))

/-- `GridSegment::wholeGrid` (`grid_segment.cpp:122-125`). -/
def wholeGrid (v : View) : GridSegment := ⟨fun c => v.count c, fun _ => ∅⟩

/-- The body of the first loop of `openDomain` for one element (`grid_segment.cpp:161-184`): the
8-bit counters and the excluded sets. -/
def openStep (domains : Finset Int) (dim : Nat) (st : (Nat → BitVec 8) × (Nat → Finset Int)) (e : Elem) :
    (Nat → BitVec 8) × (Nat → Finset Int) :=
  if e.domain ∈ domains then
    ((e.sub 1).foldl (fun cnt i => Function.update cnt i (cnt i + 1)) st.1, st.2)
  else
    (st.1, (codims 1 dim).foldl (fun ex codim => insertAll ex codim (e.sub codim))
      (insertAll st.2 0 [e.index]))

/-- The body of the second loop of `openDomain` for one element (`grid_segment.cpp:199-210`). -/
def openChildren (dim : Nat) (boundaryFacets : List Nat) (ex : Nat → Finset Int) (e : Elem) :
    Nat → Finset Int :=
  (List.range (e.sub 1).length).foldl (fun ex i =>
    if (e.sub 1)[i]?.getD 0 ∈ boundaryFacets then
      (codims 2 dim).foldl (fun ex codim => insertAll ex codim (e.facetChildren i codim)) ex
    else ex) ex

/-- `GridSegment::openDomain` (`grid_segment.cpp:133-218`). -/
def openDomain (v : View) (domains : Finset Int) : GridSegment :=
  let st := v.elems.foldl (openStep domains v.dim) (fun _ => 0, fun _ => ∅)
  let boundaryFacets := (List.range (v.count 1)).filter fun i => decide (st.1 i = 1)
  let ex := insertAll st.2 1 boundaryFacets
  let ex := v.elems.foldl (openChildren v.dim boundaryFacets) ex
  ⟨fun c => v.count c, ex⟩

/-- The body of the loop of `closedDomain` (`grid_segment.cpp:247-265`). -/
def closedStep (domains : Finset Int) (dim : Nat) (st : (Nat → Nat → Bool) × Finset Int) (e : Elem) :
    (Nat → Nat → Bool) × Finset Int :=
  if e.domain ∉ domains then (st.1, insert (e.index : Int) st.2)
  else
    ((codims 1 dim).foldl (fun adj codim => (e.sub codim).foldl (fun adj i =>
      Function.update adj codim (Function.update (adj codim) i true)) adj) st.1, st.2)

/-- `GridSegment::closedDomain` (`grid_segment.cpp:227-275`). -/
def closedDomain (v : View) (domains : Finset Int) : GridSegment :=
  let st := v.elems.foldl (closedStep domains v.dim) (fun _ _ => false, ∅)
  ⟨fun c => v.count c, fun codim =>
    if codim = 0 then st.2
    else if codim ≤ v.dim then
      (((List.range (v.count codim)).filter fun i => !st.1 codim i).map fun (i : Nat) => (i : Int)).toFinset
    else ∅⟩

/-- `gridSegmentWithPositiveX` (`grid_segment.cpp:360-374`): the excluded sets (entities whose center
has `x ≤ 0`, codimensions 0 to 2) come from the requested view, but the four-set constructor is called
without a level, so the entity counts are those of the level-0 view. -/
def gridSegmentWithPositiveX {R : Type} [LE R] [Zero R] [DecidableLE R] (view level0 : View)
    (centerX : Nat → Nat → R) : GridSegment :=
  ⟨fun c => level0.count c, fun codim =>
    if codim ≤ 2 then
      (((List.range (view.count codim)).filter fun i => decide (centerX codim i ≤ 0)).map
        fun (i : Nat) => (i : Int)).toFinset
    else ∅⟩

end Verif.Grid
