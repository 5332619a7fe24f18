import Mathlib.Init
/-
Model of the Morton codes of the FMM octree (lib/fmm/octree_impl.hpp).  `unsigned long` is a 64-bit
word.
-/
namespace Verif.Fmm

/-- `unsigned long` on the platforms bempp supports. -/
abbrev ULong := BitVec 64

/-- The exception thrown by `dilate3`. -/
inductive Err where
  | invalidArgument
deriving DecidableEq, Repr

/-- `Octree::dilate3` (`octree_impl.hpp:228-243`). -/
def dilate3 (x : ULong) : Except Err ULong :=
  if x > 0x000003FF#64 then .error .invalidArgument
  else
    let x := (x ||| (x <<< 16)) &&& 0x030000FF#64
    let x := (x ||| (x <<< 8)) &&& 0x0300F00F#64
    let x := (x ||| (x <<< 4)) &&& 0x030C30C3#64
    let x := (x ||| (x <<< 2)) &&& 0x09249249#64
    .ok x

/-- `Octree::contract3` (`octree_impl.hpp:246-258`). -/
def contract3 (x : ULong) : ULong :=
  let x := x &&& 0x09249249#64
  let x := (x ||| (x >>> 2)) &&& 0x030C30C3#64
  let x := (x ||| (x >>> 4)) &&& 0x0300F00F#64
  let x := (x ||| (x >>> 8)) &&& 0x030000FF#64
  let x := (x ||| (x >>> 16)) &&& 0x000003FF#64
  x

/-- `Octree::morton` (`octree_impl.hpp:260-267`). -/
def morton (x y z : ULong) : Except Err ULong := do
  let dx ← dilate3 x
  let dy ← dilate3 y
  let dz ← dilate3 z
  return dx ||| (dy <<< 1) ||| (dz <<< 2)

/-- `Octree::deMorton` (`octree_impl.hpp:269-274`). -/
def deMorton (n : ULong) : ULong × ULong × ULong :=
  (contract3 n, contract3 (n >>> 1), contract3 (n >>> 2))

/-- `Octree::getParent` (`octree_impl.hpp:89-91`). -/
def getParent (n : ULong) : ULong := n >>> 3
/-- `Octree::getFirstChild` (`octree_impl.hpp:93-95`). -/
def getFirstChild (n : ULong) : ULong := n <<< 3
/-- `Octree::getLastChild` (`octree_impl.hpp:97-99`). -/
def getLastChild (n : ULong) : ULong := (n <<< 3) + 7

/-- `Octree::getNodesPerSide` (`octree_impl.hpp:101-103`): `1 << level` is computed in `int` (32 bits)
and converted to `unsigned long`.  (For `level ≥ 31` the C++ shift is undefined; the model shifts the
bit out.) -/
def getNodesPerSide (level : Nat) : ULong := ((1#32) <<< level).signExtend 64
/-- `Octree::getNodesPerLevel` (`octree_impl.hpp:105-107`): `1 << 3 * level` in `int`. -/
def getNodesPerLevel (level : Nat) : ULong := ((1#32) <<< (3 * level)).signExtend 64

/-- The three values of the loop variables of `getNeighbors`. -/
def offsets : List Int := [-1, 0, 1]

/-- The lambda `inRange` of `getNeighbors` (`octree_impl.hpp:203-209`): the arguments are `long`; in
`n1 < sides` the `long` is converted to `unsigned long`. -/
def inRange (sides : ULong) (n1 n2 n3 : ULong) : Bool :=
  (decide (0 ≤ n1.toInt) && decide (n1 < sides)) && (decide (0 ≤ n2.toInt) && decide (n2 < sides)) &&
    (decide (0 ≤ n3.toInt) && decide (n3 < sides))

/-- The triples `(i, j, k)` of the three loops, in order. -/
def offsetTriples : List (Int × Int × Int) :=
  offsets.flatMap fun i => offsets.flatMap fun j => offsets.map fun k => (i, j, k)

/-- `Octree::getNeighbors` (`octree_impl.hpp:195-220`). -/
def getNeighbors (n : ULong) (level : Nat) : Except Err (List ULong) :=
  let (indx, indy, indz) := deMorton n
  let sides := getNodesPerSide level
  let candidates := offsetTriples.filter fun (i, j, k) =>
    !(decide (i = 0) && decide (j = 0) && decide (k = 0)) &&
      inRange sides (indx + BitVec.ofInt 64 i) (indy + BitVec.ofInt 64 j) (indz + BitVec.ofInt 64 k)
  candidates.mapM fun (i, j, k) =>
    morton (indx + BitVec.ofInt 64 i) (indy + BitVec.ofInt 64 j) (indz + BitVec.ofInt 64 k)

end Verif.Fmm
