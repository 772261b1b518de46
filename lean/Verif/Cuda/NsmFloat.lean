import Verif.Cuda.NsmSpec
import Verif.Cuda.NsmTable
import Verif.Cuda.LowLatency
import Verif.Fft.Blocks
/-
Model of the Fourier transform of the GPU in binary64 arithmetic, with the conversion of the key and of the results.

Source: /repo/concrete-cuda/cuda/src/fft/bnsmfft.cuh (`bnsmfft.cuh`), fft/twiddles.cu, complex/operations.cuh,
crypto/bootstrapping_key.cuh, crypto/gadget.cuh, crypto/torus.cuh, types/int128.cuh and polynomial/functions.cuh.

The compiler may contract a product and a sum into one fused operation (it does so by default). Which ones it contracts
is not known from the source: it is a parameter `Contract`, and the theorems hold of all its values.
-/
namespace Verif.Cuda.Nsm
open Verif.Float Verif.Fft

/-- The contraction of `a * b + c * d`: none, or one of the products is not rounded. -/
inductive Fuse where
  | none
  | left
  | right

/-- What the compiler chooses at each place of the code. -/
structure Contract where
  /-- bnsmfft.cuh:51-55: butterfly, number of the statement -/
  first : Nat → Nat → Bool
  /-- bnsmfft.cuh:77-78: level, butterfly, number of the statement -/
  fwd : Nat → Nat → Nat → Fuse
  /-- bnsmfft.cuh:133-134 -/
  inv : Nat → Nat → Nat → Fuse
  /-- operations.cuh:60-61: element, number of the statement -/
  mul : Nat → Nat → Fuse
  /-- functions.cuh:181-192: coefficient, number of the statement -/
  torus : Nat → Nat → Bool

/-- `a * b + c * d`. -/
def mulAdd (f : Fuse) (a b c d : F64) : F64 :=
  match f with
  | .none => (a.mul b).add (c.mul d)
  | .left => F64.fma a b (c.mul d)
  | .right => F64.fma c d (a.mul b)

/-- `a * b - c * d`. -/
def mulSub (f : Fuse) (a b c d : F64) : F64 :=
  match f with
  | .none => (a.mul b).sub (c.mul d)
  | .left => F64.fma a b (c.mul d).neg
  | .right => F64.fma c.neg d (a.mul b)

/-- `a + b * c`. -/
def addProd (fused : Bool) (a b c : F64) : F64 := if fused then F64.fma b c a else a.add (b.mul c)

/-- `a - b * c`. -/
def subProd (fused : Bool) (a b c : F64) : F64 := if fused then F64.fma b.neg c a else a.sub (b.mul c)

/-- The literal of bnsmfft.cuh:49-50. -/
def halfRoot : F64 := ofRat (707106781186547461715008466854 / 10 ^ 30)

/-- twiddles.cu: an element of the table, rounded by the compiler. -/
def twiddle (h : Nat) : C64 :=
  ⟨ofRat ((negtwiddles.getD h (0, 0)).1 / 10 ^ 33), ofRat ((negtwiddles.getD h (0, 0)).2 / 10 ^ 33)⟩

/-- The butterflies of bnsmfft.cuh in binary64: lines 48-55, 76-82, 128-134 and 110-111. -/
def floatOps (ch : Contract) : Ops C64 where
  first tid a b :=
    let x := b.re.sub b.im
    let y := b.re.add b.im
    (⟨addProd (ch.first tid 0) a.re x halfRoot, addProd (ch.first tid 1) a.im y halfRoot⟩,
     ⟨subProd (ch.first tid 2) a.re x halfRoot, subProd (ch.first tid 3) a.im y halfRoot⟩)
  fwd m tid w a b :=
    let v : C64 := ⟨mulSub (ch.fwd m tid 0) b.re w.re b.im w.im, mulAdd (ch.fwd m tid 1) b.im w.re b.re w.im⟩
    (⟨a.re.add v.re, a.im.add v.im⟩, ⟨a.re.sub v.re, a.im.sub v.im⟩)
  inv m tid w a b :=
    let u : C64 := ⟨a.re.sub b.re, a.im.sub b.im⟩
    (⟨a.re.add b.re, a.im.add b.im⟩,
     ⟨mulAdd (ch.inv m tid 0) u.re w.re u.im w.im, mulSub (ch.inv m tid 1) u.im w.re u.re w.im⟩)
  scale n _ a := ⟨a.re.mul ((F64.fin 1).div (F64.ofNat n)), a.im.mul ((F64.fin 1).div (F64.ofNat n))⟩

/-- An array of `n` elements after `NSMFFT_direct` (C82). -/
def gpuDirect (ch : Contract) (n : Nat) (zs : List C64) : List C64 :=
  (List.range n).map (direct (floatOps ch) twiddle n (at' zs))

/-- An array of `n` elements after `NSMFFT_inverse` (C82). -/
def gpuInverse (ch : Contract) (n : Nat) (zs : List C64) : List C64 :=
  (List.range n).map (inverse (floatOps ch) twiddle n (at' zs))

/-- operations.cuh:51-63 `operator*`. -/
def gpuMul (ch : Contract) (k : Nat) (a b : C64) : C64 :=
  ⟨mulSub (ch.mul k 0) a.re b.re a.im b.im, mulAdd (ch.mul k 1) a.re b.im a.im b.re⟩

/-- bootstrapping_key.cuh:76-79 `(double)std::numeric_limits<T>::max()`, and functions.cuh:172 and 180 where it is
converted for the product. -/
def maxTorus (w : Nat) : F64 := F64.ofNat (2 ^ w - 1)

variable {w : Nat}

/-- bootstrapping_key.cuh:69-81: a polynomial of the key as an array of `n` complex numbers. -/
def compressKey (n : Nat) (p : List (BitVec w)) : List C64 :=
  (List.range n).map fun j =>
    ⟨(ofSigned (p.getD j 0)).div (maxTorus w), (ofSigned (p.getD (n + j) 0)).div (maxTorus w)⟩

/-- gadget.cuh:77-78: a polynomial of digits as an array of `n` complex numbers (the digits have been converted to
`int32_t`, see `castDigit`). -/
def compressDigits (n : Nat) (p : List (BitVec w)) : List C64 :=
  (List.range n).map fun j => ⟨ofSigned (p.getD j 0), ofSigned (p.getD (n + j) 0)⟩

/-- `floor`. -/
def floorF : F64 → F64
  | .fin q => .fin ⌊q⌋
  | x => x

/-- `static_cast<uint64_t>` of a double; undefined in C++ outside of the range of `uint64_t` (here zero). -/
def castU64 : F64 → Nat
  | .fin q => if -1 < q ∧ q < 2 ^ 64 then ⌊q⌋.toNat else 0
  | _ => 0

/-- int128.cuh:33-41 `make_uint128_from_float`, the low word. `ldexp` is a product by a power of two. -/
def lowWord (v : F64) : Nat :=
  if F64.le (F64.powi2 64) v then castU64 (v.sub ((F64.ofNat (castU64 (v.mul (F64.powi2 (-64))))).mul (F64.powi2 64)))
  else castU64 v

/-- The CUDA function `__double2uint_rn`: nearest integer, ties to even, saturating. -/
def double2uint : F64 → Nat
  | .fin q => if rne q < 0 then 0 else if 2 ^ 32 ≤ rne q then 2 ^ 32 - 1 else (rne q).toNat
  | .pinf => 2 ^ 32 - 1
  | _ => 0

/-- torus.cuh:7-28 `typecast_double_to_torus`, for 32 and 64 bits (zero for other words, which are not used). -/
def castTorus (w : Nat) (x : F64) : BitVec w :=
  if w = 32 then BitVec.ofNat w (double2uint x) else if w = 64 then BitVec.ofNat w (lowWord x) else 0

/-- functions.cuh:179-193: the word added for the value `v`. `second` tells the second coefficient, for which the integer
part of `v` is subtracted to get the carry (line 189), in the place of that of the scaled value (line 181). -/
def torusWord (w : Nat) (ch : Contract) (k : Nat) (second : Bool) (v : F64) : BitVec w :=
  let frac := v.sub (floorF v)
  let scaled := frac.mul (maxTorus w)
  let below := if second then floorF v else floorF scaled
  let carry := addProd (ch.torus k 0) below.neg frac (maxTorus w)
  let one : F64 := .fin (if F64.le (.fin (1 / 2)) carry then 1 else 0)
  castTorus w (addProd (ch.torus k 1) one frac (maxTorus w))

/-- functions.cuh:170-199 `add_to_torus`. -/
def addToTorus (ch : Contract) (n : Nat) (out : List (BitVec w)) (zs : List C64) : List (BitVec w) :=
  (List.range (2 * n)).map fun k => out.getD k 0 +
    if k < n then torusWord w ch k false (at' zs k).re else torusWord w ch k true (at' zs (k - n)).im

/-- The transform of the GPU for polynomials of `2 n` coefficients. -/
def gpuTransform (w : Nat) (ch : Contract) (n : Nat) : Am.GpuTransform w where
  E := List C64
  zero := List.replicate n ⟨.fin 0, .fin 0⟩
  fwdGgsw p := gpuDirect ch n (compressKey n p)
  fwdDigit p := gpuDirect ch n (compressDigits n p)
  mul a b := (List.range n).map fun k => gpuMul ch k (at' a k) (at' b k)
  add a b := (List.range n).map fun k => (at' a k).add (at' b k)
  addBack out e := addToTorus ch n out (gpuInverse ch n e)

end Verif.Cuda.Nsm
