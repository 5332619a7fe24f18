import Verif.Model.SpaceVector
/-
Model of the Buffa-Christiansen spaces: `lib/space/buffa_christiansen_vector_space.cpp` and
`lib/space/rotated_buffa_christiansen_vector_space.cpp` (the same code without the test of the loop counter, and with the transformation of
Nedelec functions), `lib/fiber/buffa_christiansen_shapeset.hpp`, `lib/fiber/rotated_buffa_christiansen_shapeset.hpp`.

A table with entries -1 is a list of integers; a read with a negative index or beyond the end, and a read of an entry that has not been
written, are undefined behaviour (`ub`).  The coefficients are elements of a field.  Not modelled: bounding boxes, positions and normals.
-/
namespace Verif.Space
open Verif.Grid

/-- Outcomes other than success; `diverges`: the loop does not end. -/
inductive BcFail where
  | invalidArgument | runtimeError | ub | diverges
deriving DecidableEq, Repr

/-- A read of a vector. -/
def vget {α : Type} (l : List α) (i : Int) : Except BcFail α :=
  if i < 0 then .error .ub
  else match l[i.toNat]? with
    | some a => .ok a
    | none => .error .ub

/-- A read of an entry that may not have been written. -/
def written {α : Type} : Option α → Except BcFail α
  | some a => .ok a
  | none => .error .ub

/-- `vector.resize(n, init)` and a sequence of writes. -/
def table {α : Type} (n : Nat) (init : α) (writes : List (Nat × α)) : List α :=
  writes.foldl (fun l w => l.set w.1 w.2) (List.replicate n init)

/-- `++count[key]` for a sequence of keys. -/
def counts (n : Nat) (keys : List Nat) : List Nat := keys.foldl (fun l k => l.modify k (· + 1)) (List.replicate n 0)

/-- `subEntityIndex(entity, i, codim)`. -/
def subIndex (e : Elem) (i codim : Nat) : Nat := (e.sub codim).getD i 0

/-! ### Tables of the refined grid -/

/-- `faceCountNextToFineEdge` (`buffa_christiansen_vector_space.cpp:251-252, 263-270`). -/
def faceCountNextToFineEdge (fine : View) : List Nat :=
  counts (fine.count 1) (fine.elems.flatMap fun e => [subIndex e 0 1, subIndex e 1 1, subIndex e 2 1])

/-- `anticlockwiseEdgesToFaces` (`buffa_christiansen_vector_space.cpp:330-331, 342-343`). -/
def anticlockwiseEdgesToFaces (fine : View) : List Int :=
  table (fine.count 1) (-1) (fine.elems.map fun e => (subIndex e 0 1, (e.index : Int)))

/-- `anticlockwiseFacesToEdges` (`buffa_christiansen_vector_space.cpp:332-333, 344-345`). -/
def anticlockwiseFacesToEdges (fine : View) : List Int :=
  table (fine.count 0) (-1) (fine.elems.map fun e => (e.index, (subIndex e 1 1 : Int)))

/-- The sides of an element with one neighbour: side, vertex written to the first table, vertex used as key of the second
(`buffa_christiansen_vector_space.cpp:347-364`). -/
def boundarySides (fine : View) (e : Elem) : List (Nat × Nat × Nat) :=
  ([(0, 1, 0), (1, 0, 2), (2, 2, 1)] : List (Nat × Nat × Nat)).filter fun k =>
    (faceCountNextToFineEdge fine).getD (subIndex e k.1 1) 0 == 1

/-- `anticlockwiseBoundaryEdgesToVertices` (`buffa_christiansen_vector_space.cpp:334-335, 347-364`). -/
def anticlockwiseBoundaryEdgesToVertices (fine : View) : List Int :=
  table (fine.count 1) (-1) (fine.elems.flatMap fun e => (boundarySides fine e).map fun k => (subIndex e k.1 1, (subIndex e k.2.1 2 : Int)))

/-- The writes to `anticlockwiseVerticesToBoundaryEdges`. -/
def boundaryVertexWrites (fine : View) : List (Nat × Int) :=
  fine.elems.flatMap fun e => (boundarySides fine e).map fun k => (subIndex e k.2.2 2, (subIndex e k.1 1 : Int))

/-- `anticlockwiseVerticesToBoundaryEdges` (`buffa_christiansen_vector_space.cpp:336-337, 347-364`): indexed by vertices, with as many entries
as there are faces. -/
def anticlockwiseVerticesToBoundaryEdges (fine : View) : Except BcFail (List Int) :=
  if (boundaryVertexWrites fine).all fun w => w.1 < fine.count 0 then .ok (table (fine.count 0) (-1) (boundaryVertexWrites fine))
  else .error .ub

/-- `nextFaceAnticlockwise[i]` (`buffa_christiansen_vector_space.cpp:370-376`). -/
def nextFace (fine : View) (vb : List Int) (i : Nat) : Except BcFail Int := do
  let edge ← vget (anticlockwiseFacesToEdges fine) i
  let face ← vget (anticlockwiseEdgesToFaces fine) edge
  if face = -1 then
    let v ← vget (anticlockwiseBoundaryEdgesToVertices fine) edge
    let edge' ← vget vb v
    vget (anticlockwiseEdgesToFaces fine) edge'
  else return face

/-- `nextFaceAnticlockwise` (`buffa_christiansen_vector_space.cpp:367-377`). -/
def nextFaceAnticlockwise (fine : View) : Except BcFail (List Int) := do
  let vb ← anticlockwiseVerticesToBoundaryEdges fine
  (List.range (fine.count 0)).mapM (nextFace fine vb)

/-! ### Tables of the coarse grid -/

/-- The steps of the loop over the elements and their sides (`buffa_christiansen_vector_space.cpp:271-274, 282-283`). -/
def bcEdgeSteps (coarse : View) : List (Elem × Nat) := coarse.elems.flatMap fun e => [(e, 0), (e, 1), (e, 2)]

/-- `lowestIndicesOfElementsAdjacentToEdges[ent1Number] == ent0Number` (`buffa_christiansen_vector_space.cpp:200-214, 284`). -/
def isLowest (coarse : View) (p : Elem × Nat) : Bool := ((baryScan coarse)[subIndex p.1 p.2 1]?.bind (·.lowest)) == some p.1.index

/-- The son at side `i` (`buffa_christiansen_vector_space.cpp:287, 293, 299, 306-311`). -/
def sideSon (sonMap : Nat → Nat → Nat) (p : Elem × Nat) : Nat := sonMap p.1.index (if p.2 = 0 then 2 else if p.2 = 1 then 0 else 4)

/-- `fineFacesonEdge(·, 0)` (`buffa_christiansen_vector_space.cpp:257-258, 284-304`); the matrix is not initialised. -/
def fineFacesonEdge0 (coarse : View) (sonMap : Nat → Nat → Nat) : List (Option Nat) :=
  table (coarse.count 1) none (((bcEdgeSteps coarse).filter (isLowest coarse)).map fun p => (subIndex p.1 p.2 1, some (sideSon sonMap p)))

/-- `fineFacesonEdge(·, 1)` (`buffa_christiansen_vector_space.cpp:305-312`). -/
def fineFacesonEdge1 (coarse : View) (sonMap : Nat → Nat → Nat) : List (Option Nat) :=
  table (coarse.count 1) none (((bcEdgeSteps coarse).filter fun p => !isLowest coarse p).map fun p => (subIndex p.1 p.2 1, some (sideSon sonMap p)))

/-- `coarseVerticesonEdge(·, 0)` (`buffa_christiansen_vector_space.cpp:260-261, 288-289, 294-295, 300-301`). -/
def coarseVerticesonEdge0 (coarse : View) : List (Option Nat) :=
  table (coarse.count 1) none (((bcEdgeSteps coarse).filter (isLowest coarse)).map fun p =>
    (subIndex p.1 p.2 1, some (subIndex p.1 (if p.2 = 0 then 1 else if p.2 = 1 then 0 else 2) 2)))

/-- `coarseVerticesonEdge(·, 1)` (`buffa_christiansen_vector_space.cpp:290-291, 296-297, 302-303`). -/
def coarseVerticesonEdge1 (coarse : View) : List (Option Nat) :=
  table (coarse.count 1) none (((bcEdgeSteps coarse).filter (isLowest coarse)).map fun p =>
    (subIndex p.1 p.2 1, some (subIndex p.1 (if p.2 = 0 then 0 else if p.2 = 1 then 2 else 1) 2)))

/-- A read of an entry of a matrix that is not initialised. -/
def mget (l : List (Option Nat)) (i : Nat) : Except BcFail Nat := do
  let x ← vget l i
  written x

/-- `edgeCountNextToCoarseVertex` (`buffa_christiansen_vector_space.cpp:245-246, 278-281`). -/
def edgeCountNextToCoarseVertex (coarse : View) : List Nat :=
  counts (coarse.count 2) (coarse.elems.flatMap fun e => [subIndex e 0 2, subIndex e 1 2, subIndex e 2 2])

/-- `faceCountNextToCoarseEdge` (`buffa_christiansen_vector_space.cpp:248-249, 275-277`). -/
def faceCountNextToCoarseEdge (coarse : View) (edge : Nat) : Nat := (((baryScan coarse)[edge]?).map (·.adjacent)).getD 0

/-- `vertexOnBoundary` (`buffa_christiansen_vector_space.cpp:317-328`). -/
def vertexOnBoundary (coarse : View) : Except BcFail (List Bool) := do
  let writes ← ((List.range (coarse.count 1)).filter fun edge => faceCountNextToCoarseEdge coarse edge == 1).mapM fun edge => do
    let a ← mget (coarseVerticesonEdge0 coarse) edge
    let b ← mget (coarseVerticesonEdge1 coarse) edge
    return [(a, true), (b, true)]
  return table (coarse.count 2) false writes.flatten

/-- `globalDofsOfEdges` and `globalDofCount_` (`buffa_christiansen_vector_space.cpp:380-392`); `m_putDofsOnBoundaries` is false here. -/
def bcNumbering (coarse : View) : List Int × Nat :=
  numberBlocks (fun x : EdgeInfo => if x.adjacent = 1 then 0 else 1) (fun _ => -1) (baryScan coarse) 0

/-! ### Coefficients -/

/-- A column of `m_fineFaceCoeffs[face]`. -/
structure Col (K : Type) where
  c0 : K
  c1 : K
  c2 : K
deriving DecidableEq

/-- `m_fineFaceCoeffs`, `m_local2globalDofs`, `m_local2globalDofWeights`, `m_global2localDofs`. -/
structure BcState (K : Type) where
  coeffs : List (List (Col K))
  local2global : List (List Int)
  weights : List (List K)
  global2local : List (List LocalDof)
deriving DecidableEq

variable {K : Type}

/-- `ffCoeff.conservativeResize(3, ffCoeff.cols() + 1)` and the coefficients of the new column. -/
def BcState.append (st : BcState K) (face : Nat) (c : Col K) : BcState K := { st with coeffs := st.coeffs.modify face (· ++ [c]) }

/-- Writes to the last column. -/
def BcState.setLast (st : BcState K) (face : Nat) (f : Col K → Col K) : BcState K :=
  { st with coeffs := st.coeffs.modify face fun l => l.dropLast ++ (l.getLast?.map f).toList }

/-- `m_local2globalDofs[faceNum].push_back(glDof)` and the three lines that follow it
(`buffa_christiansen_vector_space.cpp:466-469`). -/
def BcState.record (st : BcState K) (face dof : Nat) (w : K) : BcState K :=
  { st with
    local2global := st.local2global.modify face (· ++ [(dof : Int)])
    weights := st.weights.modify face (· ++ [w])
    global2local := st.global2local.modify dof (· ++ [⟨face, ((st.coeffs.getD face []).length - 1)⟩]) }

/-- What the loops around the vertices use. -/
structure BcTables where
  next : List Int
  edgesToFaces : List Int
  facesToEdges : List Int
  face0 : List (Option Nat)
  face1 : List (Option Nat)
  vertex0 : List (Option Nat)
  vertex1 : List (Option Nat)
  edgeCount : List Nat
  onBoundary : List Bool

/-- `anticlockwiseEdgesToFaces[anticlockwiseFacesToEdges[faceNum]] == -1` (`buffa_christiansen_vector_space.cpp:460-461`). -/
def BcTables.atBoundary (T : BcTables) (face : Nat) : Except BcFail Bool := do
  let edge ← vget T.facesToEdges face
  let f ← vget T.edgesToFaces edge
  return f == -1

/-- The block "Before" (`buffa_christiansen_vector_space.cpp:453-471`): the new value of `pastBoundary` and the state. -/
def bcBefore [Field K] (T : BcTables) (onB : Bool) (N dof : Nat) (w : K) (i : Int) (face : Nat) (past : Bool) (st : BcState K) :
    Except BcFail (Bool × BcState K) := do
  let (past', c1) ← if onB then
      (if past then Except.ok (past, ((N : K) - 1) / N)
      else do
        let b ← T.atBoundary face
        Except.ok (b, -1 / (N : K)))
    else Except.ok (past, -((i : K) * 1) / (2 * N))
  return (past', (st.setLast face fun c => { c with c1 := c1 }).record face dof w)

/-- The block "After" (`buffa_christiansen_vector_space.cpp:474-486`). -/
def bcAfter [Field K] (onB : Bool) (N : Nat) (i : Int) (face : Nat) (past : Bool) (st : BcState K) : BcState K :=
  st.append face ⟨if onB then (if past then -((N : K) - 1) / N else 1 / N) else (i : K) * 1 / (2 * N), 0, 0⟩

/-- The loop around a vertex (`buffa_christiansen_vector_space.cpp:448-487, 515-554`); `checked` is false in the rotated space. -/
def bcLoop [Field K] (T : BcTables) (checked onB : Bool) (N start dof : Nat) (w : K) :
    Nat → Int → Nat → Bool → BcState K → Except BcFail (BcState K)
  | 0, _, _, _, _ => .error .diverges
  | fuel + 1, i, face, past, st =>
    if face = start then .ok st
    else if checked = true ∧ i < -(N : Int) * 3 then .error .runtimeError
    else do
      let (past', st) ← bcBefore T onB N dof w i face past st
      let f ← vget T.next face
      if f < 0 then .error .ub
      else bcLoop T checked onB N start dof w fuel (i - 1) f.toNat past' (bcAfter onB N i f.toNat past' st)

/-- One vertex of an edge (`buffa_christiansen_vector_space.cpp:432-498, 500-565`). -/
def bcHalf [Field K] (T : BcTables) (checked : Bool) (start vertex dof : Nat) (w : K) (st : BcState K) : Except BcFail (BcState K) := do
  let N ← vget T.edgeCount vertex
  let onB ← vget T.onBoundary vertex
  let f ← vget T.next start
  if f < 0 then .error .ub
  else
    let st := st.append f.toNat ⟨if onB then -((N : K) - 2) / (2 * N) else 0, 0, 1 / 2⟩
    let st ← bcLoop T checked onB N start dof w (T.next.length + 4 * N + 2) ((N : Int) - 1) f.toNat false st
    let st := st.setLast start fun c => { c with c1 := if onB then ((N : K) - 2) / (2 * N) else c.c1, c2 := 1 / 2 }
    return st.record start dof w

/-- One edge (`buffa_christiansen_vector_space.cpp:422-566`). -/
def bcEdge [Field K] (T : BcTables) (checked : Bool) (edge : Nat) (dof : Int) (st : BcState K) : Except BcFail (BcState K) :=
  if dof = -1 then .ok st
  else do
    let first ← mget T.face0 edge
    let v0 ← mget T.vertex0 edge
    let st ← bcHalf T checked first v0 dof.toNat 1 st
    let second ← mget T.face1 edge
    let v1 ← mget T.vertex1 edge
    bcHalf T checked second v1 dof.toNat (-1) st

/-- The loop over the edges (`buffa_christiansen_vector_space.cpp:417-567`). -/
def bcEdges [Field K] (T : BcTables) (checked : Bool) : List (Nat × Int) → BcState K → Except BcFail (BcState K)
  | [], st => .ok st
  | p :: l, st => do
    let st ← bcEdge T checked p.1 p.2 st
    bcEdges T checked l st

/-- The last loop (`buffa_christiansen_vector_space.cpp:587-601`). -/
def bcFill [Field K] (st : BcState K) : BcState K where
  coeffs := st.coeffs.map fun l => if l = [] then [⟨0, 0, 0⟩] else l
  local2global := (st.local2global.zip st.coeffs).map fun p => if p.2 = [] then p.1 ++ [-1] else p.1
  weights := (st.weights.zip st.coeffs).map fun p => if p.2 = [] then p.1 ++ [1] else p.1
  global2local := st.global2local

/-- All tables. -/
def bcTables (coarse fine : View) (sonMap : Nat → Nat → Nat) : Except BcFail BcTables := do
  let onB ← vertexOnBoundary coarse
  let next ← nextFaceAnticlockwise fine
  return ⟨next, anticlockwiseEdgesToFaces fine, anticlockwiseFacesToEdges fine, fineFacesonEdge0 coarse sonMap,
    fineFacesonEdge1 coarse sonMap, coarseVerticesonEdge0 coarse, coarseVerticesonEdge1 coarse, edgeCountNextToCoarseVertex coarse, onB⟩

/-- The constructors, `initialize` and `assignDofsImpl` (`buffa_christiansen_vector_space.cpp:75-123, 189-604`).  The segment is only stored. -/
def assignBC (K : Type) [Field K] (checked : Bool) (coarse fine : View) (sonMap : Nat → Nat → Nat) (_s : GridSegment)
    (mode : DofMode) (pb : Bool) : Except BcFail (BcState K) := do
  if mode.edgeOnSegment = false ∧ mode.elementOnSegment = false then .error .invalidArgument
  else if fine.dim ≠ 2 then .error .invalidArgument
  else if pb then .error .invalidArgument
  else
    let T ← bcTables coarse fine sonMap
    let dofs := bcNumbering coarse
    let st ← bcEdges T checked ((List.range (coarse.count 1)).map fun j => (j, dofs.1.getD j (-1)))
      ⟨List.replicate (fine.count 0) [], List.replicate (fine.count 0) [], List.replicate (fine.count 0) [], List.replicate dofs.2 []⟩
    return bcFill st

/-- The dof maps of the space. -/
def BcState.maps (st : BcState K) : DofMaps := ⟨st.local2global, st.global2local⟩

/-- Entry `(j, dof)` of the coefficients. -/
def Col.get (c : Col K) (j : Nat) : K := if j = 0 then c.c0 else if j = 1 then c.c1 else c.c2

/-- `BuffaChristiansenShapeset::evaluate` (`buffa_christiansen_shapeset.hpp:42-108`). -/
noncomputable def bcShape (cols : List (Col ℝ)) (dof : Nat) (p : ℝ × ℝ) : Verif.Shape.BasisAt :=
  combine (fun j => ((cols[dof]?).map fun c => c.get j).getD 0) fun j => rtShape j p

/-- `RotatedBuffaChristiansenShapeset::evaluate` (`rotated_buffa_christiansen_shapeset.hpp`): the same with Nedelec functions. -/
noncomputable def rbcShape (cols : List (Col ℝ)) (dof : Nat) (p : ℝ × ℝ) : Verif.Shape.BasisAt :=
  combine (fun j => ((cols[dof]?).map fun c => c.get j).getD 0) fun j => ncShape j p

end Verif.Space
