import Verif.Cuda.Switch
import Verif.Cuda.Keyswitch
import Verif.Pbs.Model
/-
Model of the amortized bootstrap of CUDA: what one block computes from one ciphertext.

Source: /repo/concrete-cuda/cuda/src/bootstrap_amortized.cuh (`amortized.cuh`),
/repo/concrete-cuda/cuda/src/crypto/gadget.cuh and /repo/concrete-cuda/cuda/src/crypto/bootstrapping_key.cuh.

The functions on polynomials are the sequential ones; the threads of the block compute them however they interleave
(C79). The transform of the GPU (key conversion, FFT, product, inverse FFT, `add_to_torus`) is a parameter
`Pbs.Transform`. The key and the ciphertexts are lists of polynomials, at the places of C75 and C77.
-/
namespace Verif.Cuda.Am
open Verif.Pbs

variable {w : Nat}

/-- gadget.cuh:79-80, the conversion of a digit to `int32_t`. -/
def castDigit (x : BitVec w) : BitVec w := (x.setWidth 32).signExtend w

/-- functions.cuh:114-140: the rotated polynomial minus the polynomial (C79). -/
def rotateSub (p : List (BitVec w)) (j : Nat) : List (BitVec w) := List.zipWith (· - ·) (Poly.monomialMul p j) p

/-- amortized.cuh:121-123 `round_to_closest_multiple_inplace` and 136-137, the constructor of `GadgetMatrix`
(gadget.cuh:39-42). -/
def gadgetState (b l : Nat) (p : List (BitVec w)) : List (BitVec w) :=
  p.map fun x => roundToClosestMultiple b l x >>> (w - b * l)

/-- gadget.cuh:55-83 `decompose_and_compress_next_polynomial`: the digits and the new state of a polynomial. -/
def nextDigits (b : Nat) (state : List (BitVec w)) : List (BitVec w) × List (BitVec w) :=
  (state.map fun s => castDigit (decomposeOne s ((1#w <<< b) - 1#w) b).1,
   state.map fun s => (decomposeOne s ((1#w <<< b) - 1#w) b).2)

/-- bootstrapping_key.cuh:11-28 `get_ith_mask_kth_block` plus `j` polynomials (amortized.cuh:158), in polynomials: the
index is a multiple of `polynomial_size / 2`. -/
def keyIndex (k l iteration level i j : Nat) : Nat :=
  iteration * ((k + 1) * (k + 1) * l) + level * ((k + 1) * (k + 1)) + i * (k + 1) + j

/-- amortized.cuh:142-162, the body of the loop over the polynomials. The state is `accumulator_rotated` and
`res_fft`. -/
def polyStep (T : Transform w) (k b l : Nat) (key : List T.E) (iteration level : Nat)
    (s : List (List (BitVec w)) × List T.E) (i : Nat) : List (List (BitVec w)) × List T.E :=
  let d := nextDigits b (s.1.getD i [])
  (s.1.set i d.2, (List.range (k + 1)).map fun j =>
    T.mulAcc (s.2.getD j T.zero) (key.getD (keyIndex k l iteration level i j) T.zero) (T.fwdDigit d.1))

/-- amortized.cuh:140-165, the loop over the levels, `level_count - 1` first. -/
def levelLoop (T : Transform w) (k b l : Nat) (key : List T.E) (iteration : Nat)
    (s : List (List (BitVec w)) × List T.E) : List (List (BitVec w)) × List T.E :=
  (List.range l).reverse.foldl (fun s level => (List.range (k + 1)).foldl (polyStep T k b l key iteration level) s) s

/-- amortized.cuh:104-202, one turn of the loop over the mask: `acc` is the accumulator, `aHat` the exponent. -/
def maskStep (T : Transform w) (N k b l : Nat) (key : List T.E) (iteration : Nat) (acc : List (BitVec w)) (aHat : Nat) :
    List (BitVec w) :=
  let polys := chunks N acc
  let rotated := polys.map fun p => gadgetState b l (rotateSub p aHat)
  let res := (levelLoop T k b l key iteration (rotated, List.replicate (k + 1) T.zero)).2
  (zipUpdate T.addBack polys res).flatten

/-- amortized.cuh:92-112 and bootstrap_low_latency.cuh:185-200: the lookup table is divided by `X^b_hat`, then `step`,
with `a_hat`, is done for each mask element, also those that are zero. `none` for words for which the conversion from
double is not modelled (`toWord`). -/
def rotateWith (step : Nat → List (BitVec w) → Nat → List (BitVec w)) (N : Nat) (lut lwe : List (BitVec w)) :
    Option (List (BitVec w)) :=
  match lwe.getLast? with
  | none => none
  | some body =>
    (rescaleTorusElement body (2 * N)).bind fun bHat =>
      (List.range (lwe.length - 1)).foldl (fun acc iteration => acc.bind fun acc =>
        (rescaleTorusElement (lwe.getD iteration 0) (2 * N)).map fun aHat => step iteration acc aHat)
        (some ((chunks N lut).map fun p => Poly.monomialDiv p bHat).flatten)

/-- amortized.cuh:92-202: the blind rotation of the lookup table `lut` by the ciphertext `lwe`. -/
def blindRotate (T : Transform w) (N k b l : Nat) (key : List T.E) (lut lwe : List (BitVec w)) :
    Option (List (BitVec w)) :=
  rotateWith (maskStep T N k b l key) N lut lwe

/-- amortized.cuh:54-212: the output for one ciphertext; `lweOut` is the previous content of the output. -/
def bootstrap (T : Transform w) (N k b l : Nat) (key : List T.E) (lut lweIn lweOut : List (BitVec w)) :
    Option (List (BitVec w)) :=
  (blindRotate T N k b l key lut lweIn).bind fun acc => Glwe.sampleExtract N acc lweOut 0

end Verif.Cuda.Am
