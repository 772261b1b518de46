import Verif.Cuda.Barrier
import Mathlib.Data.Fintype.Prod
/-
Model of the functions by which the threads of a CUDA block work together on the polynomials of a bootstrap.

Source: /repo/concrete-cuda/cuda/src/polynomial/functions.cuh (`functions.cuh`) and
/repo/concrete-cuda/cuda/src/crypto/gadget.cuh (`gadget.cuh`).

The code of a thread is a list of accesses to the arrays of the block and of barriers
(`synchronize_threads_in_block`); the machine that runs the threads is that of Verif.Cuda.Barrier, with the threads of
a block in the place of the blocks of a grid. A thread moves by one access at a time, and the threads move in any
order.

`T` is the number of threads (`block_size`, `params::degree / params::opt`) and `opt` the number of coefficients of a
thread for each polynomial (`elems_per_thread`, `params::opt`); the polynomials have `T * opt` coefficients
(`params::degree`). An index computed with unsigned arithmetic like `tid - degree + j` is written as the natural
number it stands for. The arrays do not overlap (C75).
-/
namespace Verif.Cuda.Thr
open Grid

/-- The arrays of a block: the accumulator, the rotated accumulator, the lookup table, the digits (the real and the
imaginary parts of `accumulator_fft` in turn), the result. -/
inductive Arr where
  | acc | rot | lut | dig | out
  deriving DecidableEq

/-- A word of an array. -/
abbrev Loc := Arr × Nat

/-- The registers of a thread. -/
abbrev Regs (w : Nat) := Nat → BitVec w

/-- An access of a thread. -/
abbrev Ins (w : Nat) := Instr Loc (BitVec w) (Regs w)

/-- The code of a thread. -/
abbrev Code (w : Nat) := List (Op Loc (BitVec w) (Regs w))

variable {w : Nat}

/-- `r = A[i]`. -/
def rd (A : Arr) (i r : Nat) : Ins w := .read (A, i) fun v x => Function.update x r v

/-- `A[i] = f(registers)`. -/
def wr (A : Arr) (i : Nat) (f : Regs w → BitVec w) : Ins w := .write (A, i) f

/-- A computation on register `r`. -/
def op (r : Nat) (f : Regs w → BitVec w) : Ins w := .comp fun x => Function.update x r (f x)

/-- The loop of thread `t` over its coefficients of one polynomial: `tid = t, t + T, …`. -/
def loop (T opt t : Nat) (f : Nat → List (Ins w)) : List (Ins w) :=
  (List.range opt).flatMap fun i => f (t + i * T)

/-- The loop over the polynomials `z` and the coefficients of the thread. -/
def loops (T opt np t : Nat) (f : Nat → Nat → List (Ins w)) : List (Ins w) :=
  (List.range np).flatMap fun z => loop T opt t (f z)

/-- functions.cuh:68-103 `divide_by_monomial_negacyclic_inplace`, one coefficient (77-100). -/
def divideCell (N j : Nat) (zeroAcc : Bool) (z tid : Nat) : List (Ins w) :=
  if zeroAcc then [wr .acc (z * N + tid) fun _ => 0#w]
  else if j < N then
    if tid < N - j then [rd .lut (z * N + (tid + j)) 0, wr .acc (z * N + tid) fun r => r 0]
    else [rd .lut (z * N + (tid + j - N)) 0, wr .acc (z * N + tid) fun r => -r 0]
  else
    let jj := j - N
    if tid < N - jj then [rd .lut (z * N + (tid + jj)) 0, wr .acc (z * N + tid) fun r => -r 0]
    else [rd .lut (z * N + (tid + jj - N)) 0, wr .acc (z * N + tid) fun r => r 0]

/-- functions.cuh:68-103. -/
def divideByMonomial (T opt np j : Nat) (zeroAcc : Bool) (t : Nat) : List (Ins w) :=
  loops T opt np t (divideCell (T * opt) j zeroAcc)

/-- functions.cuh:114-140 `multiply_by_monomial_negacyclic_and_sub_polynomial`, one coefficient (122-137). -/
def rotateCell (N j z tid : Nat) : List (Ins w) :=
  if j < N then
    if tid < j then
      [rd .acc (z * N + (tid + N - j)) 0, rd .acc (z * N + tid) 1, wr .rot (z * N + tid) fun r => -r 0 - r 1]
    else [rd .acc (z * N + (tid - j)) 0, rd .acc (z * N + tid) 1, wr .rot (z * N + tid) fun r => r 0 - r 1]
  else
    let jj := j - N
    if tid < jj then
      [rd .acc (z * N + (tid + N - jj)) 0, rd .acc (z * N + tid) 1, wr .rot (z * N + tid) fun r => r 0 - r 1]
    else [rd .acc (z * N + (tid - jj)) 0, rd .acc (z * N + tid) 1, wr .rot (z * N + tid) fun r => -r 0 - r 1]

/-- functions.cuh:114-140. -/
def multiplyByMonomialAndSub (T opt np j t : Nat) : List (Ins w) := loops T opt np t (rotateCell (T * opt) j)

/-- functions.cuh:149-168 `round_to_closest_multiple_inplace`, one coefficient (157-165). -/
def roundCell (N b l z tid : Nat) : List (Ins w) :=
  let shift := w - l * b
  let mask := 1#w <<< (shift - 1)
  [rd .rot (z * N + tid) 0,
   op 1 fun r => (r 0 &&& mask) >>> (shift - 1),
   op 2 fun r => r 0 >>> shift,
   op 2 fun r => r 2 + r 1,
   op 2 fun r => r 2 <<< shift,
   wr .rot (z * N + tid) fun r => r 2]

/-- functions.cuh:149-168. -/
def roundInplace (T opt np b l t : Nat) : List (Ins w) := loops T opt np t (roundCell (T * opt) b l)

/-- gadget.cuh:39-42, one coefficient of the loop of the constructor of `GadgetMatrix`; the loop over all the
coefficients of the polynomials is written as one over the polynomials and one over the coefficients, which are
the same coefficients in the same order. -/
def shiftCell (N b l z tid : Nat) : List (Ins w) :=
  [rd .rot (z * N + tid) 0, wr .rot (z * N + tid) fun r => r 0 >>> (w - b * l)]

/-- gadget.cuh:31-44, the constructor of `GadgetMatrix`, without the barrier at its end. -/
def gadgetInit (T opt np b l t : Nat) : List (Ins w) := loops T opt np t (shiftCell (T * opt) b l)

/-- gadget.cuh:62-81, one turn of the loop of `decompose_and_compress_next_polynomial`: the coefficients `tid` and
`tid + N/2` of the polynomial `z`, written to element `tid` of the `slot`-th polynomial of the digits. The conversion
`(int32_t)` keeps the low 32 bits, with sign. -/
def decomposeCell (N b z slot tid : Nat) : List (Ins w) :=
  let re := z * N + tid
  let im := z * N + (tid + N / 2)
  let mask := (1#w <<< b) - 1#w
  [rd .rot re 0, op 0 fun r => r 0 &&& mask,
   rd .rot im 1, op 1 fun r => r 1 &&& mask,
   rd .rot re 2, wr .rot re fun r => r 2 >>> b,
   rd .rot im 2, wr .rot im fun r => r 2 >>> b,
   rd .rot re 2, op 3 fun r => ((r 0 - 1#w) ||| r 2) &&& r 0,
   rd .rot im 2, op 4 fun r => ((r 1 - 1#w) ||| r 2) &&& r 1,
   op 3 fun r => r 3 >>> (b - 1),
   op 4 fun r => r 4 >>> (b - 1),
   rd .rot re 2, wr .rot re fun r => r 2 + r 3,
   rd .rot im 2, wr .rot im fun r => r 2 + r 4,
   op 0 fun r => r 0 - (r 3 <<< b),
   op 1 fun r => r 1 - (r 4 <<< b),
   wr .dig (slot * N + 2 * tid) fun r => ((r 0).setWidth 32).signExtend w,
   wr .dig (slot * N + (2 * tid + 1)) fun r => ((r 1).setWidth 32).signExtend w]

/-- gadget.cuh:55-83 `decompose_and_compress_next_polynomial`, without the barrier at its end. -/
def decomposePolynomial (T opt b z slot t : Nat) : List (Ins w) :=
  loop T (opt / 2) t (decomposeCell (T * opt) b z slot)

/-- A stretch of code without barriers. -/
def plain (is : List (Ins w)) : Code w := is.map Op.instr

/-- gadget.cuh:47-52 `decompose_and_compress_next`. -/
def decomposeNext (T opt np b t : Nat) : Code w :=
  (List.range np).flatMap fun z => plain (decomposePolynomial T opt b z z t) ++ [.sync]

/-- gadget.cuh:85-88 `decompose_and_compress_level`. -/
def decomposeLevel (T opt np b l level t : Nat) : Code w :=
  (List.range (l - level)).flatMap fun _ => decomposeNext T opt np b t

/-- bootstrap_low_latency.cuh:202-219, what a block does with its accumulator before the Fourier transform, on one
polynomial. -/
def prepare (T opt b l j level t : Nat) : Code w :=
  plain (multiplyByMonomialAndSub T opt 1 j t) ++ plain (roundInplace T opt 1 b l t) ++ [.sync] ++
    plain (gadgetInit T opt 1 b l t) ++ [.sync] ++ decomposeLevel T opt 1 b l level t

/-- functions.cuh:213-282 `sample_extract_mask`, on polynomial `z`: negation (222-228), reversal (231-245),
multiplication by `X` (249-272; `1 < params::degree` for all the instances), copy (275-280). Registers `i < opt` are
`result[i]`. -/
def extractPolynomial (T opt z t : Nat) : Code w :=
  let N := T * opt
  plain (loop T opt t fun tid => [rd .acc (z * N + tid) opt, wr .acc (z * N + tid) fun r => -r opt]) ++ [.sync] ++
  plain ((List.range opt).map fun i => rd .acc (z * N + (N - (t + i * T) - 1)) i) ++ [.sync] ++
  plain ((List.range opt).map fun i => wr .acc (z * N + (t + i * T)) fun r => r i) ++ [.sync] ++
  plain ((List.range opt).flatMap fun i =>
    if t + i * T < 1 then [rd .acc (z * N + (t + i * T + N - 1)) i, op i fun r => -r i]
    else [rd .acc (z * N + (t + i * T - 1)) i]) ++ [.sync] ++
  plain ((List.range opt).map fun i => wr .acc (z * N + (t + i * T)) fun r => r i) ++ [.sync] ++
  plain (loop T opt t fun tid => [rd .acc (z * N + tid) opt, wr .out (z * N + tid) fun r => r opt])

/-- functions.cuh:213-282 `sample_extract_mask`. -/
def extractMask (T opt np t : Nat) : Code w := (List.range np).flatMap fun z => extractPolynomial T opt z t

/-- functions.cuh:205-209 `sample_extract_body`. Simplification: every thread writes this same word with this same
value; here the thread 0 does. -/
def extractBody (T opt k t : Nat) : Code w :=
  if t = 0 then plain [rd .acc (k * (T * opt)) opt, wr .out (k * (T * opt)) fun r => r opt] else []

/-- bootstrap_amortized.cuh:208-211, the extraction at the end of the amortized bootstrap. -/
def extractSample (T opt k t : Nat) : Code w := extractMask T opt k t ++ extractBody T opt k t

/-- The programs of the threads of a block that executes `code`. -/
def program (T : Nat) (code : Nat → Code w) (t : Fin T) : Prog Loc (BitVec w) (Regs w) := segments (code t)

end Verif.Cuda.Thr
