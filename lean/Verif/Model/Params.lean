import Verif.Model.QuadratureSelector
import Mathlib.Data.Rat.Cast.Order
/-
Model of parameter lists: cython/bempp/core/utils/parameter_list.pyx (and .pxd),
cython/bempp/core/common/global_parameters.pyx, lib/common/global_parameters.cpp, and of the code that reads them:
lib/assembly/context.cpp, lib/assembly/evaluation_options.cpp, lib/assembly/hmat_interface.cpp (generateBlockClusterTree),
lib/assembly/hmat_global_assembler.cpp, lib/operators/modified_helmholtz_operators_imp.hpp,
python/bempp/api/assembly/boundary_operator.py (ElementaryBoundaryOperator).

Simplifications: `boost::property_tree::ptree` is a finite map from paths to typed values instead of texts; a finite
floating-point number is a rational number and survives the conversion to text and back (Boost writes enough digits);
reading a value as another type than the one it was written with fails (the Python properties never do it).  The texts "inf"
and "nan" cannot be read back as numbers by `std::istream` (libstdc++), which is what `boost::property_tree` uses.
-/
namespace Verif.Params

/-- Floating-point numbers. -/
inductive Dbl where
  | fin (x : ℚ)
  | posInf
  | negInf
  | nan
deriving DecidableEq, Repr

/-- What a node of the tree holds. -/
inductive Value where
  | int (i : Int)
  | bool (b : Bool)
  | dbl (x : Dbl)
  | str (s : String)
deriving DecidableEq, Repr

/-- `ptree`; a path `"a.b.c"` is `["a", "b", "c"]`. -/
abbrev Path := List String
abbrev Tree := List (Path × Value)

/-- Results of C++ code and of Python code that calls it. -/
inductive Res (α : Type) where
  | ok (a : α)
  /-- `ptree_bad_path`, `ptree_bad_data`: a C++ exception. -/
  | ptreeError
  /-- `std::runtime_error` -/
  | runtimeError
  /-- a C++ exception leaves a function that Cython does not declare `except +`: the process ends -/
  | terminate
  /-- undefined behaviour -/
  | undefined
deriving Repr

def Res.bind {α β : Type} (r : Res α) (f : α → Res β) : Res β :=
  match r with
  | .ok a => f a
  | .ptreeError => .ptreeError
  | .runtimeError => .runtimeError
  | .terminate => .terminate
  | .undefined => .undefined

/-- `ptree::put`: replaces the value at the path or adds it. -/
def put : Tree → Path → Value → Tree
  | [], p, v => [(p, v)]
  | (q, w) :: t, p, v => if q = p then (q, v) :: t else (q, w) :: put t p v

/-- `ptree::get_child_optional(path)`: the value at the path. -/
def lookup : Tree → Path → Option Value
  | [], _ => none
  | (q, w) :: t, p => if q = p then some w else lookup t p

/-- `ptree::erase(key)`: erases the direct children of the root with this key, a key is not a path. -/
def eraseKey (t : Tree) (key : String) : Tree := t.filter fun e => e.1.head? != some key

/-- The stream translators of `get<T>`; `none`: the conversion fails. -/
def asInt : Value → Option Int
  | .int i => some i
  | _ => none

def asBool : Value → Option Bool
  | .bool b => some b
  | _ => none

def asDbl : Value → Option ℚ
  | .dbl (.fin x) => some x
  | _ => none

def asStr : Value → Option String
  | .str s => some s
  | _ => none

/-- `ptree::get<T>(path)`: throws `ptree_bad_path` or `ptree_bad_data`. -/
def get {α : Type} (conv : Value → Option α) (t : Tree) (p : Path) : Res α :=
  match (lookup t p).bind conv with
  | some a => .ok a
  | none => .ptreeError

/-- `ptree::get<T>(path, default)`: `get_optional<T>(path).get_value_or(default)`. -/
def getOr {α : Type} (conv : Value → Option α) (t : Tree) (p : Path) (d : α) : α :=
  ((lookup t p).bind conv).getD d

/-! ### The default parameters -/

/-- The lambda `createQuadratureOptions` (`global_parameters.cpp:63-88`); the distances are converted to `double`. -/
def quadratureOptions (t : Tree) (name : String) (relDist : Dbl) (single double : Int) : Tree :=
  put (put (put t ["options", "quadrature", name, "maxRelDist"] (.dbl relDist))
    ["options", "quadrature", name, "singleOrder"] (.int single))
    ["options", "quadrature", name, "doubleOrder"] (.int double)

/-- `GlobalParameters::parameterList()` (`global_parameters.cpp:26-124`).  The last digits of the literal of the cutoff are
those of the source. -/
def globalParameters : Tree :=
  let t : Tree := []
  let t := put t ["options", "global", "maxThreadCount"] (.int (-1))
  let t := put t ["options", "global", "verbosityLevel"] (.int 5)
  let t := put t ["options", "assembly", "boundaryOperatorAssemblyType"] (.str "hmat")
  let t := put t ["options", "assembly", "potentialOperatorAssemblyType"] (.str "hmat")
  let t := put t ["options", "assembly", "enableSingularIntegralCaching"] (.bool true)
  let t := put t ["options", "assembly", "enableInterpolationForOscillatoryKernels"] (.bool true)
  let t := put t ["options", "assembly", "interpolationPointsPerWavelength"] (.int 5000)
  let t := put t ["options", "quadrature", "doubleSingular"] (.int 6)
  let t := quadratureOptions t "near" (.fin 2) 4 4
  let t := quadratureOptions t "medium" (.fin 4) 3 3
  let t := quadratureOptions t "far" .posInf 2 2
  let t := eraseKey t "options.quadrature.far.maxRelDist"
  let t := put t ["options", "hmat", "minBlockSize"] (.int 20)
  let t := put t ["options", "hmat", "maxBlockSize"] (.int 1000000)
  let t := put t ["options", "hmat", "eta"] (.dbl (.fin (12 / 10)))
  let t := put t ["options", "hmat", "admissibility"] (.str "weak")
  let t := put t ["options", "hmat", "eps"] (.dbl (.fin (1 / 1000)))
  let t := put t ["options", "hmat", "maxRank"] (.int 30)
  let t := put t ["options", "hmat", "compressionAlgorithm"] (.str "aca")
  put t ["options", "hmat", "cutoff"] (.dbl (.fin (1797693134862315 * 10 ^ 293)))

/-! ### The Python properties -/

/-- The properties of `ParameterList` (`parameter_list.pyx`): `assembly.*`, `quadrature.near.*`, `quadrature.medium.*`,
`quadrature.far.*`, `quadrature.double_singular`, `hmat.*`, `verbosity.extended_verbosity`, `output.gmsh_use_binary`. -/
inductive Param where
  | boundaryOperatorAssemblyType | potentialOperatorAssemblyType | enableSingularIntegralCaching
  | enableInterpolation | interpolationPointsPerWavelength
  | nearMaxRelDist | nearSingleOrder | nearDoubleOrder
  | mediumMaxRelDist | mediumSingleOrder | mediumDoubleOrder
  | farSingleOrder | farDoubleOrder
  | doubleSingular
  | minBlockSize | maxBlockSize | eta | eps | maxRank | compressionAlgorithm | admissibility | cutoff
  | extendedVerbosity | gmshUseBinary
deriving DecidableEq, Repr

/-- The C types of the setters. -/
inductive Kind where
  | int | bool | dbl | str
deriving DecidableEq, Repr

/-- The type of the argument of `__set__` and of the `get_…`/`put_…` that is called. -/
def Param.kind : Param → Kind
  | .boundaryOperatorAssemblyType => .str
  | .potentialOperatorAssemblyType => .str
  | .enableSingularIntegralCaching => .bool
  | .enableInterpolation => .bool
  | .interpolationPointsPerWavelength => .int
  | .nearMaxRelDist => .dbl
  | .nearSingleOrder => .int
  | .nearDoubleOrder => .int
  | .mediumMaxRelDist => .dbl
  | .mediumSingleOrder => .int
  | .mediumDoubleOrder => .int
  | .farSingleOrder => .int
  | .farDoubleOrder => .int
  | .doubleSingular => .int
  | .minBlockSize => .int
  | .maxBlockSize => .int
  | .eta => .dbl
  | .eps => .dbl
  | .maxRank => .int
  | .compressionAlgorithm => .str
  | .admissibility => .str
  | .cutoff => .dbl
  | .extendedVerbosity => .bool
  | .gmshUseBinary => .bool

/-- The path the getter uses; `none`: an attribute of the Cython object (`parameter_list.pyx:16-52`). -/
def Param.getPath : Param → Option Path
  | .boundaryOperatorAssemblyType => some ["options", "assembly", "boundaryOperatorAssemblyType"]
  | .potentialOperatorAssemblyType => some ["options", "assembly", "potentialOperatorAssemblyType"]
  | .enableSingularIntegralCaching => some ["options", "assembly", "enableSingularIntegralCaching"]
  | .enableInterpolation => some ["options", "assembly", "enableInterpolationForOscillatoryKernels"]
  | .interpolationPointsPerWavelength => some ["options", "assembly", "interpolationPointsPerWavelength"]
  | .nearMaxRelDist => some ["options", "quadrature", "near", "maxRelDist"]
  | .nearSingleOrder => some ["options", "quadrature", "near", "singleOrder"]
  | .nearDoubleOrder => some ["options", "quadrature", "near", "doubleOrder"]
  | .mediumMaxRelDist => some ["options", "quadrature", "medium", "maxRelDist"]
  | .mediumSingleOrder => some ["options", "quadrature", "medium", "singleOrder"]
  | .mediumDoubleOrder => some ["options", "quadrature", "medium", "doubleOrder"]
  | .farSingleOrder => some ["options", "quadrature", "far", "singleOrder"]
  | .farDoubleOrder => some ["options", "quadrature", "far", "doubleOrder"]
  | .doubleSingular => some ["options", "quadrature", "doubleSingular"]
  | .minBlockSize => some ["options", "hmat", "minBlockSize"]
  | .maxBlockSize => some ["options", "hmat", "maxBlockSize"]
  | .eta => some ["options", "hmat", "eta"]
  | .eps => some ["options", "hmat", "eps"]
  | .maxRank => some ["options", "hmat", "maxRank"]
  | .compressionAlgorithm => some ["options", "hmat", "compressionAlgorithm"]
  | .admissibility => some ["options", "hmat", "admissibility"]
  | .cutoff => some ["options", "hmat", "cutoff"]
  | .extendedVerbosity => none
  | .gmshUseBinary => none

/-- The path the setter uses (the strings are repeated in each setter). -/
def Param.setPath : Param → Option Path
  | .boundaryOperatorAssemblyType => some ["options", "assembly", "boundaryOperatorAssemblyType"]
  | .potentialOperatorAssemblyType => some ["options", "assembly", "potentialOperatorAssemblyType"]
  | .enableSingularIntegralCaching => some ["options", "assembly", "enableSingularIntegralCaching"]
  | .enableInterpolation => some ["options", "assembly", "enableInterpolationForOscillatoryKernels"]
  | .interpolationPointsPerWavelength => some ["options", "assembly", "interpolationPointsPerWavelength"]
  | .nearMaxRelDist => some ["options", "quadrature", "near", "maxRelDist"]
  | .nearSingleOrder => some ["options", "quadrature", "near", "singleOrder"]
  | .nearDoubleOrder => some ["options", "quadrature", "near", "doubleOrder"]
  | .mediumMaxRelDist => some ["options", "quadrature", "medium", "maxRelDist"]
  | .mediumSingleOrder => some ["options", "quadrature", "medium", "singleOrder"]
  | .mediumDoubleOrder => some ["options", "quadrature", "medium", "doubleOrder"]
  | .farSingleOrder => some ["options", "quadrature", "far", "singleOrder"]
  | .farDoubleOrder => some ["options", "quadrature", "far", "doubleOrder"]
  | .doubleSingular => some ["options", "quadrature", "doubleSingular"]
  | .minBlockSize => some ["options", "hmat", "minBlockSize"]
  | .maxBlockSize => some ["options", "hmat", "maxBlockSize"]
  | .eta => some ["options", "hmat", "eta"]
  | .eps => some ["options", "hmat", "eps"]
  | .maxRank => some ["options", "hmat", "maxRank"]
  | .compressionAlgorithm => some ["options", "hmat", "compressionAlgorithm"]
  | .admissibility => some ["options", "hmat", "admissibility"]
  | .cutoff => some ["options", "hmat", "cutoff"]
  | .extendedVerbosity => none
  | .gmshUseBinary => none

/-- A `ParameterList` object: the C++ tree that all its sub-objects point to, and the attributes of `_verbosity` and
`_output`. -/
structure PList where
  tree : Tree
  extendedVerbosity : Bool
  gmshUseBinary : Bool

/-- `ParameterList()` (`parameter_list.pyx:321-336`): an empty tree.  `_extended_verbosity` is never assigned, Cython
initialises it with 0; `_gmsh_use_binary` is set to `True` (`:41`). -/
def emptyList : PList := ⟨[], false, true⟩

/-- `global_parameters()` (`global_parameters.pyx:7-11`). -/
def globalList : PList := { emptyList with tree := globalParameters }

/-- Python values; `other`: any other object. -/
inductive PyVal where
  | int (i : Int)
  | bool (b : Bool)
  | float (x : Dbl)
  | str (s : String)
  | other
deriving DecidableEq, Repr

/-- The Python exceptions of the setters. -/
inductive PyErr where
  | overflowError | typeError | valueError
deriving DecidableEq, Repr

/-- The truth value of a Python object (`cbool value`).  Other objects are taken to be true. -/
def truth : PyVal → Bool
  | .int i => i != 0
  | .bool b => b
  | .float x => x != .fin 0
  | .str s => s != ""
  | .other => true

/-- The conversion of the argument by Cython, and `_convert_to_bytes` (`parameter_list.pyx:7-14`).  A Python integer given
for a `double` is converted exactly (simplification).  A `float` given for an `int` is rejected (Cython 3; older versions
truncate it). -/
def convert : Kind → PyVal → Except PyErr Value
  | .int, .int i => if -2147483648 ≤ i ∧ i ≤ 2147483647 then .ok (.int i) else .error .overflowError
  | .int, .bool b => .ok (.int (if b then 1 else 0))
  | .int, _ => .error .typeError
  | .bool, v => .ok (.bool (truth v))
  | .dbl, .float x => .ok (.dbl x)
  | .dbl, .int i => .ok (.dbl (.fin i))
  | .dbl, .bool b => .ok (.dbl (.fin (if b then 1 else 0)))
  | .dbl, _ => .error .typeError
  | .str, .str s => .ok (.str s)
  | .str, _ => .error .valueError

/-- A property is read: the getters of the tree are not declared `except +` (`parameter_list.pxd:17-20`). -/
def PList.read (l : PList) (p : Param) : Res Value :=
  match p.getPath with
  | none =>
    match p with
    | .extendedVerbosity => .ok (.bool l.extendedVerbosity)
    | _ => .ok (.bool l.gmshUseBinary)
  | some path =>
    let r : Res Value :=
      match p.kind with
      | .int => (get asInt l.tree path).bind fun i => .ok (.int i)
      | .bool => (get asBool l.tree path).bind fun b => .ok (.bool b)
      | .dbl => (get asDbl l.tree path).bind fun x => .ok (.dbl (.fin x))
      | .str => (get asStr l.tree path).bind fun s => .ok (.str s)
    match r with
    | .ptreeError => .terminate
    | r => r

/-- A converted value is stored. -/
def PList.store (l : PList) (p : Param) (v : Value) : PList :=
  match p.setPath with
  | none =>
    match p, v with
    | .extendedVerbosity, .bool b => { l with extendedVerbosity := b }
    | .gmshUseBinary, .bool b => { l with gmshUseBinary := b }
    | _, _ => l
  | some path => { l with tree := put l.tree path v }

/-- A property is set. -/
def PList.set (l : PList) (p : Param) (v : PyVal) : Except PyErr PList :=
  match convert p.kind v with
  | .ok v => .ok (l.store p v)
  | .error e => .error e

/-! ### Histories -/

/-- What a program does with parameter lists; lists are numbered in the order of their creation. -/
inductive Event where
  /-- `bempp.api.common.global_parameters()` -/
  | newGlobal
  /-- `bempp.api.common.ParameterList()` -/
  | newEmpty
  /-- list `i`, property `p`: assign; a Python exception is caught by the program -/
  | set (i : Nat) (p : Param) (v : PyVal)

/-- One event. Assignments to lists that do not exist do nothing. -/
def step (heap : List PList) : Event → List PList
  | .newGlobal => heap ++ [globalList]
  | .newEmpty => heap ++ [emptyList]
  | .set i p v =>
    match heap[i]? with
    | none => heap
    | some l =>
      match l.set p v with
      | .ok l' => heap.set i l'
      | .error _ => heap

/-- A history from an empty heap. -/
def run (heap : List PList) (h : List Event) : List PList := h.foldl step heap

/-! ### The readers -/

inductive Mode where
  | dense | hmat
deriving DecidableEq, Repr

inductive Verbosity where
  | low | default | high
deriving DecidableEq, Repr

/-- What `Context` holds. -/
structure Context where
  mode : Mode
  maxThreadCount : Int
  verbosity : Verbosity
  singularCaching : Bool
  singleRegular : Quad.Ranges
  doubleRegular : Quad.Ranges
  doubleSingular : Quad.QuadOpts

/-- `setMaxThreadCount` (`parallelization_options.cpp:51-57`), `AUTO` is -1. -/
def checkThreads (n : Int) : Res Int := if n ≤ 0 ∧ n ≠ -1 then .runtimeError else .ok n

/-- The verbosity level (`context.cpp:79-88`, `evaluation_options.cpp:51-59`). -/
def verbosityOf (n : Int) : Res Verbosity :=
  if n = -5 then .ok .low else if n = 0 then .ok .default else if n = 5 then .ok .high else .runtimeError

/-- The assembly mode (`context.cpp:58-68`, `evaluation_options.cpp:40-47`). -/
def modeOf (s : String) : Res Mode :=
  if s = "hmat" then .ok .hmat else if s = "dense" then .ok .dense else .runtimeError

/-- `setSingleRegular`/`setDoubleRegular` with two thresholds (`accuracy_options.cpp:98-115, 224-241`). -/
noncomputable def setTwo (d₁ : ℚ) (o₁ : Int) (d₂ : ℚ) (o₂ o₃ : Int) (relative : Bool) : Res Quad.Ranges :=
  match Quad.setRegular [((d₁ : ℝ) : WithTop ℝ), ((d₂ : ℝ) : WithTop ℝ)] [o₁, o₂, o₃] relative with
  | .ok l => .ok l
  | .throw => .runtimeError
  | .undefined => .undefined

/-- `parameters.get<T>(path, defaults.get<T>(path))`. -/
def getDefaulted {α : Type} (conv : Value → Option α) (t : Tree) (p : Path) : Res α :=
  (get conv globalParameters p).bind fun d => .ok (getOr conv t p d)

/-- `Context(globalParameterList)` (`context.cpp:52-143`). -/
noncomputable def context (t : Tree) : Res Context :=
  (getDefaulted asStr t ["options", "assembly", "boundaryOperatorAssemblyType"]).bind fun assemblyType =>
  (modeOf assemblyType).bind fun mode =>
  (getDefaulted asInt t ["options", "global", "maxThreadCount"]).bind fun threads =>
  (checkThreads threads).bind fun threads =>
  (getDefaulted asInt t ["options", "global", "verbosityLevel"]).bind fun level =>
  (verbosityOf level).bind fun verbosity =>
  (getDefaulted asBool t ["options", "assembly", "enableSingularIntegralCaching"]).bind fun caching =>
  (getDefaulted asDbl t ["options", "quadrature", "near", "maxRelDist"]).bind fun near =>
  (getDefaulted asInt t ["options", "quadrature", "near", "singleOrder"]).bind fun nearSingle =>
  (getDefaulted asDbl t ["options", "quadrature", "medium", "maxRelDist"]).bind fun medium =>
  (getDefaulted asInt t ["options", "quadrature", "medium", "singleOrder"]).bind fun mediumSingle =>
  (getDefaulted asInt t ["options", "quadrature", "far", "singleOrder"]).bind fun farSingle =>
  (setTwo near nearSingle medium mediumSingle farSingle false).bind fun singleRegular =>
  (getDefaulted asInt t ["options", "quadrature", "near", "doubleOrder"]).bind fun nearDouble =>
  (getDefaulted asInt t ["options", "quadrature", "medium", "doubleOrder"]).bind fun mediumDouble =>
  (getDefaulted asInt t ["options", "quadrature", "far", "doubleOrder"]).bind fun farDouble =>
  (setTwo near nearDouble medium mediumDouble farDouble false).bind fun doubleRegular =>
  (getDefaulted asInt t ["options", "quadrature", "doubleSingular"]).bind fun singular =>
  .ok ⟨mode, threads, verbosity, caching, singleRegular, doubleRegular, ⟨false, singular⟩⟩

/-- `EvaluationOptions(parameters)` (`evaluation_options.cpp:28-60`). -/
def evaluationOptions (t : Tree) : Res (Mode × Int × Verbosity) :=
  (get asStr t ["options", "assembly", "potentialOperatorAssemblyType"]).bind fun assemblyType =>
  (get asInt t ["options", "global", "maxThreadCount"]).bind fun threads =>
  (get asInt t ["options", "global", "verbosityLevel"]).bind fun level =>
  (checkThreads threads).bind fun threads =>
  (modeOf assemblyType).bind fun mode =>
  (verbosityOf level).bind fun verbosity =>
  .ok (mode, threads, verbosity)

inductive Admissibility where
  | strong (eta : ℚ)
  | weak
deriving DecidableEq, Repr

inductive Compressor where
  | aca (eps : ℚ) (maxRank : Int) (cutoff : ℚ)
  | dense (cutoff : ℚ)
deriving DecidableEq, Repr

/-- What the assembly of an H-matrix uses. -/
structure HMatOptions where
  minBlockSize : Int
  maxBlockSize : Int
  admissibility : Admissibility
  compressor : Compressor
deriving DecidableEq, Repr

/-- The options read by `generateBlockClusterTree` (`hmat_interface.cpp:66-98`). -/
def blockClusterOptions (t : Tree) : Res (Int × Int × Admissibility) :=
  (get asStr t ["options", "hmat", "admissibility"]).bind fun admissibility =>
  (get asInt t ["options", "hmat", "minBlockSize"]).bind fun minBlockSize =>
  (get asInt t ["options", "hmat", "maxBlockSize"]).bind fun maxBlockSize =>
  if admissibility = "strong" then
    (get asDbl t ["options", "hmat", "eta"]).bind fun eta => .ok (minBlockSize, maxBlockSize, .strong eta)
  else if admissibility = "weak" then .ok (minBlockSize, maxBlockSize, .weak)
  else .runtimeError

/-- The options read by the assembly of an H-matrix; `boundary`: the assembly of boundary operators
(`hmat_global_assembler.cpp:139-175`), which reads three values that it does not use, otherwise that of potential
operators (`:228-252`). -/
def hmatOptions (boundary : Bool) (t : Tree) : Res HMatOptions :=
  (if boundary then
    (get asInt t ["options", "hmat", "minBlockSize"]).bind fun _ =>
    (get asInt t ["options", "hmat", "maxBlockSize"]).bind fun _ =>
    (get asDbl t ["options", "hmat", "eta"]).bind fun _ => .ok ()
  else .ok ()).bind fun _ =>
  (blockClusterOptions t).bind fun bct =>
  (get asStr t ["options", "hmat", "compressionAlgorithm"]).bind fun algorithm =>
  (get asInt t ["options", "hmat", "maxRank"]).bind fun maxRank =>
  (get asDbl t ["options", "hmat", "eps"]).bind fun eps =>
  (get asDbl t ["options", "hmat", "cutoff"]).bind fun cutoff =>
  if algorithm = "aca" then .ok ⟨bct.1, bct.2.1, bct.2.2, .aca eps maxRank cutoff⟩
  else if algorithm = "dense" then .ok ⟨bct.1, bct.2.1, bct.2.2, .dense cutoff⟩
  else .runtimeError

/-! ### Operators -/

/-- A modified Helmholtz boundary operator: the kernel is chosen when the operator is created, the parameter list is kept
by reference (`boundary_operator.py:266-283`). -/
structure Operator where
  list : Nat
  /-- `none`: the kernel is evaluated directly; `some n`: interpolated with `n` points per wavelength -/
  interpolation : Option Int
deriving DecidableEq, Repr

/-- `modifiedHelmholtzSingleLayerBoundaryOperator` (`modified_helmholtz_operators_imp.hpp:62-122`; the other operators of
this file and those of `maxwell_operators_imp.hpp:60-63` read the same parameters), called through Cython with
`except +catch_exception`. -/
noncomputable def createOperator (heap : List PList) (i : Nat) : Option (Res Operator) :=
  heap[i]?.map fun l =>
    (context l.tree).bind fun _ =>
    (get asInt l.tree ["options", "assembly", "interpolationPointsPerWavelength"]).bind fun points =>
    (get asBool l.tree ["options", "assembly", "enableInterpolationForOscillatoryKernels"]).bind fun use =>
    .ok ⟨i, if use then some points else none⟩

/-- What an assembly uses. -/
structure Assembled where
  context : Context
  interpolation : Option Int
  /-- `none`: dense assembly -/
  hmat : Option HMatOptions

/-- `ElementaryBoundaryOperator._weak_form_impl` (`boundary_operator.py:296-322`, `abstract_boundary_operator.py:25-52`,
`abstract_boundary_operator.cpp: assembleWeakForm(parameterList)`): the Python code reads the assembly type, then a `Context`
is built from the list as it is now; in `hmat` mode the assembler reads the H-matrix options. -/
noncomputable def assemble (heap : List PList) (op : Operator) : Option (Res Assembled) :=
  heap[op.list]?.map fun l =>
    (l.read .boundaryOperatorAssemblyType).bind fun _ =>
    (context l.tree).bind fun c =>
    match c.mode with
    | .dense => .ok ⟨c, op.interpolation, none⟩
    | .hmat => (hmatOptions true l.tree).bind fun o => .ok ⟨c, op.interpolation, some o⟩

end Verif.Params
