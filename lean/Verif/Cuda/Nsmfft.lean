import Verif.Cuda.Barrier
/-
Model of the Fourier transform of the GPU.

Source: /repo/concrete-cuda/cuda/src/fft/bnsmfft.cuh (`bnsmfft.cuh`).

The code of a thread is a list of accesses to the array `A` and of barriers (`__syncthreads`), run by the machine of
Verif.Cuda.Barrier with the threads of a block in the place of the blocks of a grid. An element of `A` (a `double2`) is
accessed at once; no two threads access the same element between two barriers (this is proved).

The arithmetic is a parameter `Ops`: the same code is run on complex numbers and on pairs of floats (NsmFloat).
-/
namespace Verif.Cuda.Nsm
open Grid

/-- The arithmetic of the transforms. The functions also get the place in the code where they are used (`m` and `tid`):
the compiler may contract a product and a sum at one place and not at another one. -/
structure Ops (V : Type) where
  /-- bnsmfft.cuh:48-55: the new `A[i1]` and `A[i2]` from the old ones. -/
  first : Nat → V → V → V × V
  /-- bnsmfft.cuh:76-82, after the twiddle factor. -/
  fwd : Nat → Nat → V → V → V → V × V
  /-- bnsmfft.cuh:128-134, after the twiddle factor. -/
  inv : Nat → Nat → V → V → V → V × V
  /-- bnsmfft.cuh:110-111, for `params::degree`. -/
  scale : Nat → Nat → V → V

variable {V : Type}

/-- The values of two elements that a thread holds. -/
abbrev Regs (V : Type) := V × V

/-- A butterfly: both elements are read, then both are written. bnsmfft.cuh:51-52 and 79-80 read `A[i1]` again; it has
not changed. -/
def butterfly (i1 i2 : Nat) (f : V → V → V × V) : List (Instr Nat V (Regs V)) :=
  [.read i1 fun v x => (v, x.2), .read i2 fun v x => (x.1, v),
   .write i1 fun x => (f x.1 x.2).1, .write i2 fun x => (f x.1 x.2).2]

/-- The loop of thread `t`: `c` turns (`params::opt / 2`) with the step `T` (`params::degree / params::opt`). -/
def loop (T c t : Nat) (f : Nat → List (Instr Nat V (Regs V))) : List (Instr Nat V (Regs V)) :=
  (List.range c).flatMap fun i => f (t + i * T)

/-- A stretch of code followed by a barrier. -/
def synced (is : List (Instr Nat V (Regs V))) : List (Op Nat V (Regs V)) := is.map Op.instr ++ [.sync]

/-- bnsmfft.cuh:72-73, 124-125: the first index of a butterfly. -/
def i1 (t tid : Nat) : Nat := 2 * t * (tid / t) + (tid &&& (t - 1))

/-- bnsmfft.cuh:45-58, the first level; `n` is `params::degree`. -/
def firstCode (ops : Ops V) (n T c thread : Nat) : List (Instr Nat V (Regs V)) :=
  loop T c thread fun tid => butterfly tid (tid + n / 2) (ops.first tid)

/-- bnsmfft.cuh:71-85, one turn of the loop over the levels. -/
def fwdCode (ops : Ops V) (tw : Nat → V) (t m T c thread : Nat) : List (Instr Nat V (Regs V)) :=
  loop T c thread fun tid => butterfly (i1 t tid) (i1 t tid + t) (ops.fwd m tid (tw (tid / t + m)))

/-- bnsmfft.cuh:123-136, one turn of the loop over the levels. -/
def invCode (ops : Ops V) (tw : Nat → V) (t m T c thread : Nat) : List (Instr Nat V (Regs V)) :=
  loop T c thread fun tid => butterfly (i1 t tid) (i1 t tid + t) (ops.inv m tid (tw (tid / t + m)))

/-- bnsmfft.cuh:65-69 `while (t > 1)`: the values of `t` and `m` in the turns of the loop. -/
def fwdLevels (t m : Nat) : List (Nat × Nat) :=
  if 1 < t then (t / 2, 2 * m) :: fwdLevels (t / 2) (2 * m) else []
  termination_by t

/-- bnsmfft.cuh:119-121, 137 `while (m > 1)`: the values of `t` and `m` in the turns of the loop. -/
def invLevels (m t : Nat) : List (Nat × Nat) :=
  if 1 < m then (t, m / 2) :: invLevels (m / 2) (2 * t) else []
  termination_by m

/-- bnsmfft.cuh:25-87 `NSMFFT_direct`, for `T` threads with `c` butterflies each. -/
def directCode (ops : Ops V) (tw : Nat → V) (n T c thread : Nat) : List (Op Nat V (Regs V)) :=
  synced (firstCode ops n T c thread) ++
    (fwdLevels (n / 2) 1).flatMap fun x => synced (fwdCode ops tw x.1 x.2 T c thread)

/-- bnsmfft.cuh:108-114: the loop over `params::opt` elements. -/
def scaleCode (ops : Ops V) (n T c thread : Nat) : List (Instr Nat V (Regs V)) :=
  loop T (2 * c) thread fun tid => [.read tid fun v x => (v, x.2), .write tid fun x => ops.scale n tid x.1]

/-- bnsmfft.cuh:92-140 `NSMFFT_inverse`. -/
def inverseCode (ops : Ops V) (tw : Nat → V) (n T c thread : Nat) : List (Op Nat V (Regs V)) :=
  synced (scaleCode ops n T c thread) ++
    (invLevels n 1).flatMap fun x => synced (invCode ops tw x.1 x.2 T c thread)

/-- The program of the threads. -/
def directProg (ops : Ops V) (tw : Nat → V) (n T c : Nat) (thread : Fin T) : Prog Nat V (Regs V) :=
  segments (directCode ops tw n T c thread)

/-- The program of the threads. -/
def inverseProg (ops : Ops V) (tw : Nat → V) (n T c : Nat) (thread : Fin T) : Prog Nat V (Regs V) :=
  segments (inverseCode ops tw n T c thread)

end Verif.Cuda.Nsm
