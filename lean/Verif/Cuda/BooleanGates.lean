import Verif.Cuda.Keyswitch
import Verif.Cuda.PbsTables
/-
Model of the Boolean gates of the CUDA library.

Source: /repo/concrete-cuda/cuda/src/boolean_gates.cu.

Each function is a sequence of calls on device buffers: the model gives it as a list of operations, run one after the
other on a memory (the calls of one function are on one stream, which runs them in order). Ciphertexts have 32-bit words.
The memory of the bootstrap itself (`scratch_cuda_bootstrap_amortized_32`) is the subject of C75 and not in these lists.
Copies from host arrays that are freed afterwards are complete before the call returns, because such arrays are
pageable memory (CUDA documentation).
-/
namespace Verif.Cuda.Bg
open Verif Verif.Cuda

/-- The device buffers of the functions, by their names: `lwe_array_in_1`, `lwe_array_in_2`, `lwe_buffer_1` to
`lwe_buffer_4`, the array of plaintexts, `cleartext_array`, `pbs_lut`, `pbs_lut_indexes`, `lwe_pbs_buffer`,
`lwe_array_out`. -/
inductive Buf
  | in1 | in2 | lwe1 | lwe2 | lwe3 | lwe4 | plain | clear | lut | indexes | pbs | out
  deriving DecidableEq

/-- The device memory: the buffers that are allocated and what they hold. -/
abbrev Memory := Buf → Option (DVec (BitVec 32))

def Memory.set (m : Memory) (b : Buf) (v : Option (DVec (BitVec 32))) : Memory := fun x => if x = b then v else m x

/-- Using a buffer that is not allocated is an access outside of the memory. -/
def Memory.get (m : Memory) (b : Buf) : Out (DVec (BitVec 32)) :=
  match m b with
  | none => .overrun
  | some v => .ok v

/-- boolean_gates.cu:9. -/
def plainTrue : BitVec 32 := 1#32 <<< (32 - 3)

/-- boolean_gates.cu:10 (`7 << 29` as an `int`, then converted to 32 unsigned bits). -/
def plainFalse : BitVec 32 := 7#32 <<< (32 - 3)

/-- The calls that the functions make. -/
inductive Op
  /-- `cuda_malloc_async` of so many words -/
  | alloc (b : Buf) (len : Nat)
  /-- `cuda_memcpy_async_to_gpu` of a host array -/
  | upload (b : Buf) (src : List (BitVec 32))
  /-- `cuda_add_lwe_ciphertext_vector_32` -/
  | add (o a b : Buf)
  /-- `cuda_add_lwe_ciphertext_vector_plaintext_vector_32` -/
  | addPlain (o a p : Buf)
  /-- `cuda_negate_lwe_ciphertext_vector_32` -/
  | negate (o a : Buf)
  /-- `cuda_mult_lwe_ciphertext_vector_cleartext_vector_32` -/
  | mult (o a c : Buf)
  /-- `cuda_bootstrap_amortized_lwe_ciphertext_vector_32` with `num_lut_vectors = 1` and `lwe_idx = 0` -/
  | bootstrap (o lut idx a : Buf)
  /-- `cuda_keyswitch_lwe_ciphertext_vector_32` -/
  | keyswitch (o a : Buf)
  /-- `cuda_drop_async` -/
  | drop (b : Buf)

/-- The parameters and keys of a call: `input_lwe_dimension`, `glwe_dimension`, `polynomial_size`,
`input_lwe_ciphertext_count`, `max_shared_memory`, the decomposition and the words of the keyswitching key, and the
bootstrap of one ciphertext: `pbs o c a` for the table `a`, the ciphertext `c` and the previous content `o` of the
output. -/
structure Params where
  n : Nat
  k : Nat
  N : Nat
  count : Nat
  maxShared : Nat
  ksBase : Nat
  ksLevel : Nat
  ksk : List (BitVec 32)
  pbs : List (BitVec 32) → List (BitVec 32) → List (BitVec 32) → Option (List (BitVec 32))

/-- The choices of the device during a call: the order of the threads of the launch that writes a buffer, the order of
the accesses in the blocks of the keyswitch, and the words found in memory that was not written. -/
structure Runs where
  order : Buf → Order
  ks : Nat → List Nat
  junk : Nat → Nat
  prev : List (BitVec 32)

/-- One call; see Kernels.lean, PbsTables.lean and Keyswitch.lean for the functions that are called. Simplified: a
bootstrap that the model of one ciphertext does not define gives zeros. -/
def exec (P : Params) (R : Runs) : Op → Memory → Out Memory
  | .alloc b len, m => .ok (m.set b (some (malloc len)))
  | .upload b src, m => (m.get b).bind fun d => (copyToGpu d src).bind fun d => .ok (m.set b (some d))
  | .add o a b, m => (m.get a).bind fun x => (m.get b).bind fun y => (m.get o).bind fun z =>
      (hostAddition (R.order o) (P.n + 1) P.count x y z).bind fun z => .ok (m.set o (some z))
  | .addPlain o a p, m => (m.get a).bind fun x => (m.get p).bind fun y => (m.get o).bind fun z =>
      (hostPlaintextAddition (R.order o) (P.n + 1) P.count x y z).bind fun z => .ok (m.set o (some z))
  | .negate o a, m => (m.get a).bind fun x => (m.get o).bind fun z =>
      (hostNegation (R.order o) (P.n + 1) P.count x z).bind fun z => .ok (m.set o (some z))
  | .mult o a c, m => (m.get a).bind fun x => (m.get c).bind fun y => (m.get o).bind fun z =>
      (hostCleartextMultiplication (R.order o) (P.n + 1) P.count x y z).bind fun z => .ok (m.set o (some z))
  | .bootstrap o lut idx a, m => (m.get lut).bind fun t => (m.get idx).bind fun i => (m.get a).bind fun x =>
      (m.get o).bind fun z =>
        (hostPbs (R.order o) (fun table ct j => ((P.pbs R.prev ct table).getD []).getD j 0) 32 (P.n + 1)
          ((P.k + 1) * P.N) (P.k * P.N + 1) P.count 0 R.junk (i.map (Option.map BitVec.toNat)) t x z).bind fun z =>
            .ok (m.set o (some z))
  | .keyswitch o a, m => (m.get a).bind fun x => (m.get o).bind fun z =>
      (hostKeyswitch P.maxShared R.ks P.ksBase P.ksLevel (P.k * P.N) P.n P.count x (P.ksk.map some) z).bind fun z =>
        .ok (m.set o (some z))
  | .drop b, m => (m.get b).bind fun _ => .ok (m.set b none)

/-- The calls of a function, in order. -/
def run (P : Params) (R : Runs) : List Op → Memory → Out Memory
  | [], m => .ok m
  | op :: ops, m => (exec P R op m).bind fun m => run P R ops m

/-- boolean_gates.cu:65-71: the table of the bootstrap, a GLWE ciphertext with mask 0 and body `PLAINTEXT_TRUE`. -/
def lutWords (k N : Nat) : List (BitVec 32) :=
  (List.range ((k + 1) * N)).map fun index => if index < k * N then 0#32 else plainTrue

/-- boolean_gates.cu:63-116 (and 171-227, 279-335, 379-435, 500-556, 628-684): the bootstrap of the ciphertexts of
buffer `a` and the keyswitch of the result. -/
def finish (P : Params) (a : Buf) : List Op :=
  [.alloc .lut ((P.k + 1) * P.N), .upload .lut (lutWords P.k P.N),
   .alloc .indexes P.count, .upload .indexes (List.replicate P.count 0#32),
   .alloc .pbs ((P.k * P.N + 1) * P.count),
   .bootstrap .pbs .lut .indexes a,
   .drop a, .drop .lut, .drop .indexes,
   .keyswitch .out .pbs,
   .drop .pbs]

/-- boolean_gates.cu:12-20 `cuda_boolean_not_32`. -/
def notOps : List Op := [.negate .out .in1]

/-- The gates with two inputs. -/
inductive Gate
  | and | nand | nor | or | xor | xnor
  deriving DecidableEq

/-- boolean_gates.cu:22-117 `cuda_boolean_and_32`. -/
def andOps (P : Params) : List Op :=
  [.alloc .lwe1 ((P.n + 1) * P.count), .add .lwe1 .in1 .in2,
   .alloc .plain P.count, .upload .plain (List.replicate P.count plainFalse),
   .alloc .lwe2 ((P.n + 1) * P.count), .addPlain .lwe2 .lwe1 .plain,
   .drop .lwe1, .drop .plain] ++ finish P .lwe2

/-- boolean_gates.cu:119-228 `cuda_boolean_nand_32`. -/
def nandOps (P : Params) : List Op :=
  [.alloc .lwe1 ((P.n + 1) * P.count), .add .lwe1 .in1 .in2,
   .alloc .lwe2 ((P.n + 1) * P.count), .negate .lwe2 .lwe1, .drop .lwe1,
   .alloc .plain P.count, .upload .plain (List.replicate P.count plainTrue),
   .alloc .lwe3 ((P.n + 1) * P.count), .addPlain .lwe3 .lwe2 .plain,
   .drop .lwe2, .drop .plain] ++ finish P .lwe3

/-- boolean_gates.cu:230-336 `cuda_boolean_nor_32`. -/
def norOps (P : Params) : List Op :=
  [.alloc .lwe1 ((P.n + 1) * P.count), .add .lwe1 .in1 .in2,
   .alloc .lwe2 ((P.n + 1) * P.count), .negate .lwe2 .lwe1, .drop .lwe1,
   .alloc .plain P.count, .upload .plain (List.replicate P.count plainFalse),
   .alloc .lwe3 ((P.n + 1) * P.count), .addPlain .lwe3 .lwe2 .plain,
   .drop .lwe2, .drop .plain] ++ finish P .lwe3

/-- boolean_gates.cu:338-436 `cuda_boolean_or_32`. -/
def orOps (P : Params) : List Op :=
  [.alloc .lwe1 ((P.n + 1) * P.count), .add .lwe1 .in1 .in2,
   .alloc .plain P.count, .upload .plain (List.replicate P.count plainTrue),
   .alloc .lwe2 ((P.n + 1) * P.count), .addPlain .lwe2 .lwe1 .plain,
   .drop .lwe1, .drop .plain] ++ finish P .lwe2

/-- boolean_gates.cu:438-557 `cuda_boolean_xor_32`; `cleartext_array` is not dropped. -/
def xorOps (P : Params) : List Op :=
  [.alloc .lwe1 ((P.n + 1) * P.count), .add .lwe1 .in1 .in2,
   .alloc .plain P.count, .upload .plain (List.replicate P.count plainTrue),
   .alloc .lwe2 ((P.n + 1) * P.count), .addPlain .lwe2 .lwe1 .plain,
   .drop .lwe1, .drop .plain,
   .alloc .clear P.count, .upload .clear (List.replicate P.count 2#32),
   .alloc .lwe3 ((P.n + 1) * P.count), .mult .lwe3 .lwe2 .clear,
   .drop .lwe2] ++ finish P .lwe3

/-- boolean_gates.cu:559-685 `cuda_boolean_xnor_32`; `cleartext_array` is not dropped. -/
def xnorOps (P : Params) : List Op :=
  [.alloc .lwe1 ((P.n + 1) * P.count), .add .lwe1 .in1 .in2,
   .alloc .plain P.count, .upload .plain (List.replicate P.count plainTrue),
   .alloc .lwe2 ((P.n + 1) * P.count), .addPlain .lwe2 .lwe1 .plain,
   .drop .lwe1, .drop .plain,
   .alloc .lwe3 ((P.n + 1) * P.count), .negate .lwe3 .lwe2, .drop .lwe2,
   .alloc .clear P.count, .upload .clear (List.replicate P.count 2#32),
   .alloc .lwe4 ((P.n + 1) * P.count), .mult .lwe4 .lwe3 .clear,
   .drop .lwe3] ++ finish P .lwe4

def gateOps (P : Params) : Gate → List Op
  | .and => andOps P
  | .nand => nandOps P
  | .nor => norOps P
  | .or => orOps P
  | .xor => xorOps P
  | .xnor => xnorOps P

/-- The memory when a gate is called: the inputs and the output are allocated by the caller. -/
def startMemory (x y out : DVec (BitVec 32)) : Memory := fun b =>
  match b with
  | .in1 => some x
  | .in2 => some y
  | .out => some out
  | _ => none

/-- The device memory after a gate with two inputs. -/
def runGate (P : Params) (R : Runs) (g : Gate) (x y out : DVec (BitVec 32)) : Out Memory :=
  run P R (gateOps P g) (startMemory x y out)

/-- The device memory after the gate NOT. -/
def runNot (P : Params) (R : Runs) (x out : DVec (BitVec 32)) : Out Memory :=
  run P R notOps (startMemory x [] out)

end Verif.Cuda.Bg
