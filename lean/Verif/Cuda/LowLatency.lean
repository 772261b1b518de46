import Verif.Cuda.Amortized
import Verif.Cuda.PbsLow
/-
Model of the low latency bootstrap of CUDA: what its blocks compute on their own.

Source: /repo/concrete-cuda/cuda/src/bootstrap_low_latency.cuh (`low_latency.cuh`) and
/repo/concrete-cuda/cuda/src/crypto/gadget.cuh.

The communication of the blocks is in PbsLow; this file gives the functions that are parameters there.
-/
namespace Verif.Cuda.Am
open Verif.Pbs

variable {w : Nat}

/-- The operations of the transform of the GPU. They are those of `Pbs.Transform`, but the product and the sum are apart:
the blocks of the low latency bootstrap add the products in another order. -/
structure GpuTransform (w : Nat) where
  /-- arrays of `double2` -/
  E : Type
  /-- amortized.cuh:128-133 -/
  zero : E
  /-- bootstrapping_key.cuh:39-149, conversion of a polynomial of the key -/
  fwdGgsw : List (BitVec w) → E
  /-- amortized.cuh:145-147, low_latency.cuh:35, transform of the digits -/
  fwdDigit : List (BitVec w) → E
  /-- amortized.cuh:159, low_latency.cuh:60, 76, product of the digits and of a polynomial of the key -/
  mul : E → E → E
  /-- amortized.cuh:159, low_latency.cuh:76, 101 -/
  add : E → E → E
  /-- amortized.cuh:178-200, low_latency.cuh:110-113, inverse transform and `add_to_torus` -/
  addBack : List (BitVec w) → E → List (BitVec w)

/-- amortized.cuh:154-160: a product is added to the buffer. -/
def GpuTransform.toTransform (G : GpuTransform w) : Transform w where
  E := G.E
  zero := G.zero
  fwdGgsw := G.fwdGgsw
  fwdDigit := G.fwdDigit
  mulAcc acc a d := G.add acc (G.mul d a)
  addBack := G.addBack

/-- gadget.cuh:85-88 `decompose_and_compress_level`: the digits written by the last of `n` calls. -/
def lastDigits (b : Nat) : Nat → List (BitVec w) → List (BitVec w)
  | 0, _ => []
  | 1, state => (nextDigits b state).1
  | n + 2, state => lastDigits b (n + 1) (nextDigits b state).2

/-- The exponent of mask element `i`, low_latency.cuh:196-199. There is one for all words of 32 and 64 bits (C78). -/
def exponent (N : Nat) (lwe : List (BitVec w)) (i : Nat) : Nat := (rescaleTorusElement (lwe.getD i 0) (2 * N)).getD 0

/-- low_latency.cuh:193-232 and 28-116, the computations of the blocks; `lwe z` is the ciphertext of the blocks `z` and
`key` the converted key. -/
def kernel (G : GpuTransform w) (N k b l : Nat) (key : List G.E) (lwe : Nat → List (BitVec w)) :
    Low.Kernel G.E (List (BitVec w)) where
  prep i x _ z acc := G.fwdDigit (lastDigits b (l - x) (gadgetState b l (rotateSub acc (exponent N (lwe z) i))))
  mul i x y c p := G.mul p (key.getD (keyIndex k l i x y c) G.zero)
  add := G.add
  finish acc p := G.addBack acc p

/-- low_latency.cuh:183-191: the accumulator of block `(x, y, z)` before the loop, for the table `lut z` and `n` mask
elements. -/
def firstAcc (N n : Nat) (lut lwe : Nat → List (BitVec w)) (_x y z : Nat) : List (BitVec w) :=
  Poly.monomialDiv (block N (lut z) y) (exponent N (lwe z) n)

end Verif.Cuda.Am
