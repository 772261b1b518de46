import Verif.Cuda.Barrier
import Mathlib.Data.Fintype.Prod
/-
Model of the blocks of the low latency bootstrap of CUDA and of their communication.

Source: /repo/concrete-cuda/cuda/src/bootstrap_low_latency.cuh (`low_latency.cuh`).

The grid has a block `(x, y, z)` for every level `x` of the decomposition, polynomial `y` of the GLWE ciphertext
and input ciphertext `z`. A block has its own accumulator, one polynomial. The blocks of a ciphertext communicate
through its join buffer, which has a place for every level and polynomial.

What a block computes on its own is a parameter (`Kernel`): the model is about the communication. The
arrays of a block are taken to be apart from those of the others and from the join buffers (C75).
-/
namespace Verif.Cuda.Low
open Grid

/-- What the blocks compute on their own, `P` being the type of the polynomials in the Fourier domain and `A` the
type of the accumulator of a block. -/
structure Kernel (P A : Type) where
  /-- low_latency.cuh:193-227 and 34-36, in iteration `i`: rotation of the accumulator, rounding, level `x` of the
  decomposition, Fourier transform. -/
  prep (i x y z : Nat) : A → P
  /-- low_latency.cuh:43-45, 55, 60, 71, 76: the product with the polynomial `c` of the row of the bootstrap key for
  iteration `i`, level `x` and polynomial `y`. -/
  mul (i x y c : Nat) : P → P
  /-- low_latency.cuh:76, 101, the sum of two polynomials in the Fourier domain. -/
  add : P → P → P
  /-- low_latency.cuh:108-113, inverse transform and addition to the accumulator. -/
  finish : A → P → A

/-- The arrays and registers of a block. -/
structure Regs (P A : Type) where
  acc : A
  fft : P
  reg : P

/-- A place of the join buffers: ciphertext, level, polynomial. -/
abbrev Place := Nat × Nat × Nat

variable {P A : Type}

/-- low_latency.cuh:193-232 with 28-116 `mul_ggsw_glwe`, iteration `i` of the loop of block `(x, y, z)`. `k` is the
GLWE dimension and `l` the number of levels. An update `+=` of the join buffer is a read and a write. -/
def iteration (K : Kernel P A) (k l x y z i : Nat) : List (Op Place P (Regs P A)) :=
  -- lines 196-227, 35
  [.instr (.comp fun r => { r with fft := K.prep i x y z r.acc }),
  -- lines 54-64
   .instr (.write (z, x, y) fun r => K.mul i x y y r.fft), .sync] ++
  -- lines 68-80
  (List.range k).flatMap (fun j =>
    let idx := (j + 1 + y) % (k + 1)
    [.instr (.read (z, x, idx) fun v r => { r with reg := v }),
     .instr (.write (z, x, idx) fun r => K.add r.reg (K.mul i x y idx r.fft)), .sync]) ++
  -- lines 86-94
  [.instr (.read (z, 0, y) fun v r => { r with fft := v })] ++
  -- lines 97-104
  (List.range (l - 1)).flatMap (fun v =>
    [.instr (.read (z, v + 1, y) fun w r => { r with fft := K.add r.fft w })]) ++
  -- lines 110-113
  [.instr (.comp fun r => { r with acc := K.finish r.acc r.fft })]

/-- low_latency.cuh:193-232, the code of block `(x, y, z)` for an input of LWE dimension `d`. -/
def code (K : Kernel P A) (d k l x y z : Nat) : List (Op Place P (Regs P A)) :=
  (List.range d).flatMap (iteration K k l x y z)

/-- The blocks of the grid, low_latency.cuh:364. -/
abbrev Block (k l n : Nat) := Fin l × Fin (k + 1) × Fin n

/-- The programs of the blocks. -/
def program (K : Kernel P A) (d k l n : Nat) (b : Block k l n) : Prog Place P (Regs P A) :=
  segments (code K d k l b.1 b.2.1 b.2.2)

end Verif.Cuda.Low
