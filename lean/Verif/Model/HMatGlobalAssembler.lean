import Verif.Model.HMatAssembly
import Verif.Model.Compressor
/-
Model of `HMatGlobalAssembler::assembleDetachedWeakForm` (lib/assembly/hmat_global_assembler.cpp:115-200).
-/
namespace Verif.Assembly
open Verif.HMat

section
variable {K G D : Type} [CommRing K] [StarRing K]

/-- What `HMatrixDenseCompressor::compressBlockImpl` (`hmatrix_dense_compressor_impl.hpp:16-34`) obtains from
`WeakFormHMatAssemblyHelper::computeMatrixBlock`: `none` is undefined behaviour. -/
def weakFormBlock (T U : ASpace K) (p2oRow p2oCol : List Nat) (terms : List (Term K D)) (dist : BlockData G → D)
    (b : BlockData G) : Option (HData K) :=
  (computeMatrixBlock T U p2oRow p2oCol terms (dist b) b.row.data.lo b.row.data.hi b.col.data.lo b.col.data.hi).map
    HData.dense

/-- The choice of the compressor (`hmat_global_assembler.cpp:160-178`), for a single dense term with multiplier 1 (the
only caller, lines 184-200).  `acaImpl` is what the ACA compressor computes for a block; undefined behaviour
of the block generator is replaced by an empty block (that it never occurs is part of C52). -/
def assembleHMat [LE D] [DecidableLE D] (algorithm : String) (cutoff : D) (acaImpl : BlockData G → HData K)
    (T U : ASpace K) (p2oRow p2oCol : List Nat) (form : D → Nat → Nat → Nat → Nat → K) (dist : BlockData G → D) :
    Except String (BlockData G → HData K) :=
  if algorithm = "aca" then .ok fun b => (compressBlock cutoff dist acaImpl b).1
  else if algorithm = "dense" then
    .ok fun b => (compressBlock cutoff dist (fun b =>
      (weakFormBlock T U p2oRow p2oCol [(1, form)] dist b).getD (.dense (Mx.zero 0 0))) b).1
  else .error "HMatGlobalAssember::assembleDetachedWeakForm: Unknown compression algorithm"

end
end Verif.Assembly
