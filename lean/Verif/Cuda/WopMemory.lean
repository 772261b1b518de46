import Verif.Cuda.PbsMemory
import Verif.Cuda.VerticalPacking
/-
Model of the memory of the wop-PBS of CUDA: the sizes of the parts of the buffer that the scratch functions allocate, and
the places where the host functions and the kernels put their arrays.

Source: /repo/concrete-cuda/cuda/src/wop_bootstrap.cuh (`wop.cuh`), circuit_bootstrap.cuh (`cbs.cuh`),
vertical_packing.cuh (`vp.cuh`), bit_extraction.cuh and crypto/ggsw.cuh.

Sizes and positions are bytes. `T` is `sizeof(Torus)`, `N` the polynomial size, `k` the GLWE dimension, `n` the LWE
dimension, `l` the number of levels of the GGSWs, `inputs` the number of bits, `tau` the number of tables, `r` the number
of layers of the trees and `sm` the shared memory of a block. The sizes of `double` and `double2` are 8 and 16.
Simplification: the products of 32-bit numbers are not wrapped.
-/
namespace Verif.Cuda.Wm

/-- The end of each `get_buffer_size` function, which is meant to round up to a multiple of 16. -/
def pad (x : Nat) : Nat := x + x % 16

/-- `1 << x` for an `int`; `none` if this is undefined or negative. -/
def shl1 (x : Nat) : Option Nat := if x < 31 then some (2 ^ x) else none

/-- Bytes of a GGSW in words (wop.cuh:36-37), times the size `s` of a word. -/
def ggswBytes (s N k l : Nat) : Nat := s * (l * ((k + 1) * ((k + 1) * N)))

/-- cbs.cuh:103-123 `get_buffer_size_cbs`, before the rounding. -/
def cbsBytes (T N k n l inputs : Nat) : Nat :=
  T * (inputs * l * (k + 1) * (k * N + 1)) + T * (inputs * l * (k * N + 1)) + T * (inputs * l * (n + 1)) +
    T * (l * (k + 1) * N)

/-- vp.cuh:212-219 `get_memory_needed_per_block_cmux_tree`. -/
def cmuxBytes (T N k : Nat) : Nat := T * N * (k + 1) + 16 * N / 2 * (k + 1) + 16 * N / 2

/-- vp.cuh:470-480 `get_memory_needed_per_block_blind_rotation_sample_extraction`. -/
def rotateBytes (T N k : Nat) : Nat := T * N * (k + 1) + T * N * (k + 1) + cmuxBytes T N k

/-- vp.cuh:233-236 and 326-332, the memory of the blocks of the first layer of the trees. -/
def treeBlocks (T N k r tau sm : Nat) : Option Nat :=
  if sm < cmuxBytes T N k then (shl1 ((r + 2 ^ 32 - 1) % 2 ^ 32)).map fun b => cmuxBytes T N k * b * tau else some 0

/-- vp.cuh:237-239, 333-336, 494-496 and 558-561, the memory of the transform. -/
def fftBytes (N sm : Nat) : Nat := if sm < 8 * N then 8 * N else 0

/-- vp.cuh:221-244 `get_buffer_size_cmux_tree`. -/
def treeSize (T N k l r tau sm : Nat) : Option Nat :=
  (shl1 r).bind fun luts => (treeBlocks T N k r tau sm).map fun blocks =>
    pad (r * ggswBytes 8 N k l + T * (luts * tau * ((k + 1) * N)) + T * (luts * tau * ((k + 1) * N)) +
      (blocks + fftBytes N sm))

/-- vp.cuh:490-493, the memory of the blocks of the blind rotation. -/
def rotateBlocks (T N k tau sm : Nat) : Nat := if sm < rotateBytes T N k then rotateBytes T N k * tau else 0

/-- vp.cuh:482-502 `get_buffer_size_blind_rotation_sample_extraction` for `m` GGSWs. -/
def rotateSize (T N k l m tau sm : Nat) : Nat :=
  pad (m * ggswBytes 8 N k l + (rotateBlocks T N k tau sm + fftBytes N sm))

/-- wop.cuh:29-44 `get_buffer_size_cbs_vp`. -/
def cbsVpSize (T N k l inputs tau : Nat) : Nat :=
  pad (T * (inputs * l) + inputs * ggswBytes T N k l + T * (tau * ((k + 1) * N)))

/-- wop.cuh:60-75, the size of the buffer of the circuit bootstrap and vertical packing. `none` if a shift in the code
is undefined. -/
def totalSize (T N k n l logN inputs tau sm : Nat) : Option Nat :=
  let r := Vp.layerCount inputs logN
  (treeSize T N k l r tau sm).map fun tree =>
    cbsVpSize T N k l inputs tau + pad (cbsBytes T N k n l inputs) + amortizedScratch T N k (inputs * l) sm + tree +
      rotateSize T N k l (inputs - r) tau sm

/-- The arrays of the circuit bootstrap and vertical packing, in the order of their positions. -/
inductive Name where
  | pbsScratch
  | pbsOut
  | shifted
  | luts
  | fpksIn
  | ggsws
  | treeFft
  | treeBlocks
  | treeFftMem
  | tree1
  | tree2
  | treeOut
  | rotFft
  | rotFftMem
  | rotBlocks
  | indexes
  deriving DecidableEq, Repr

/-- Position of `ggsw_out_cbs`, wop.cuh:134-142. -/
def ggswStart (T N k n l inputs sm : Nat) : Nat :=
  pad (cbsBytes T N k n l inputs) + amortizedScratch T N k (inputs * l) sm

/-- The positions of the arrays: cbs.cuh:175-194, wop.cuh:131-161, vp.cuh:322-338 and 551-561. `luts` is `1 << r`, `blocks`
the memory of the blocks of the tree (`treeBlocks`) and `tree` its size (`treeSize`). The lengths are those that the
functions use; the sizes of the memories of the transform are those that the host keeps for them. -/
def region (T N k n l inputs r tau sm luts blocks tree : Nat) : Name → Region :=
  let count := inputs * l
  let pbsOut := T * (amortizedScratch T N k count sm / T)
  let shifted := pbsOut + T * (count * (k * N + 1))
  let lutv := shifted + T * (count * (n + 1))
  let fpks := lutv + T * (l * (k + 1) * N)
  let ggsws := ggswStart T N k n l inputs sm
  let treeFft := ggsws + inputs * ggswBytes T N k l
  let treeMem := treeFft + r * ggswBytes 8 N k l
  let treeFftMem := treeMem + blocks
  let tree1 := treeFftMem + fftBytes N sm
  let tree2 := tree1 + T * (luts * tau * ((k + 1) * N))
  let treeOut := treeFft + tree
  let rotFft := treeOut + T * (tau * ((k + 1) * N))
  let rotFftMem := rotFft + (inputs - r) * ggswBytes 8 N k l
  let rotMem := rotFftMem + fftBytes N sm
  let indexes := rotFft + T * (rotateSize T N k l (inputs - r) tau sm / T)
  fun
  | .pbsScratch => ⟨.scratch, 0, amortizedScratch T N k count sm, 16⟩
  | .pbsOut => ⟨.scratch, pbsOut, T * (count * (k * N + 1)), T⟩
  | .shifted => ⟨.scratch, shifted, T * (count * (n + 1)), T⟩
  | .luts => ⟨.scratch, lutv, T * (l * (k + 1) * N), T⟩
  | .fpksIn => ⟨.scratch, fpks, T * (count * (k + 1) * (k * N + 1)), T⟩
  | .ggsws => ⟨.scratch, ggsws, inputs * ggswBytes T N k l, T⟩
  | .treeFft => ⟨.scratch, treeFft, r * ggswBytes 8 N k l, 16⟩
  | .treeBlocks => ⟨.scratch, treeMem, blocks, 16⟩
  | .treeFftMem => ⟨.scratch, treeFftMem, fftBytes N sm, 16⟩
  | .tree1 => ⟨.scratch, tree1, T * (luts * tau * ((k + 1) * N)), T⟩
  | .tree2 => ⟨.scratch, tree2, T * (luts * tau * ((k + 1) * N)), T⟩
  | .treeOut => ⟨.scratch, treeOut, T * (tau * ((k + 1) * N)), T⟩
  | .rotFft => ⟨.scratch, rotFft, (inputs - r) * ggswBytes 8 N k l, 16⟩
  | .rotFftMem => ⟨.scratch, rotFftMem, fftBytes N sm, 16⟩
  | .rotBlocks => ⟨.scratch, rotMem, rotateBlocks T N k tau sm, 16⟩
  | .indexes => ⟨.scratch, indexes, T * (inputs * l), T⟩

/-- The arrays of a block that computes CMUXes. -/
inductive BlockName where
  | acc0
  | acc1
  | sub
  | resFft
  | fft
  deriving DecidableEq, Repr

/-- vp.cuh:49-56, the arrays of a CMUX whose memory starts at `base` in the memory `space`. -/
def cmuxRegion (T N k : Nat) (space : Space) (base : Nat) : BlockName → Region
  | .sub => ⟨space, base, T * ((k + 1) * N), T⟩
  | .resFft => ⟨space, base + 16 * ((k + 1) * N / (16 / T)), 16 * ((k + 1) * N / 2), 16⟩
  | .fft => ⟨space, base + 16 * ((k + 1) * N / (16 / T)) + 16 * ((k + 1) * N / 2), 16 * (N / 2), 16⟩
  | _ => ⟨space, base, 0, 1⟩

/-- vp.cuh:196-204, block `b` of a layer of the trees; `mem` is the position of `treeBlocks`. -/
def treeBlock (T N k sm mem b : Nat) : BlockName → Region :=
  if sm < cmuxBytes T N k then cmuxRegion T N k .scratch (mem + b * cmuxBytes T N k) else cmuxRegion T N k (.shared b) 0

/-- vp.cuh:360-375, the shared memory of the launch of a layer. -/
def treeShared (T N k sm : Nat) : Nat := if sm < cmuxBytes T N k then 0 else cmuxBytes T N k

/-- vp.cuh:571-583, the shared memory of the launch of the blind rotation. -/
def rotShared (T N k sm : Nat) : Nat := if sm < rotateBytes T N k then 0 else rotateBytes T N k

/-- vp.cuh:203, the number of block `(x, y)` of the grid `(num_cmuxes, tau)` of layer `layer`. -/
def treeBlockId (r layer x y : Nat) : Nat := x + y * 2 ^ (r - 1 - layer)

/-- vp.cuh:418-427, block `b` of the blind rotation; `mem` is the position of `rotBlocks`. -/
def rotBlock (T N k sm mem b : Nat) : BlockName → Region :=
  let space : Space := if sm < rotateBytes T N k then .scratch else .shared b
  let base := if sm < rotateBytes T N k then mem + b * rotateBytes T N k else 0
  fun
  | .acc0 => ⟨space, base, T * ((k + 1) * N), T⟩
  | .acc1 => ⟨space, base + T * ((k + 1) * N), T * ((k + 1) * N), T⟩
  | x => cmuxRegion T N k space (base + T * ((k + 1) * N) + T * ((k + 1) * N)) x

/-- wop.cuh:82-93: the words of the buffer after the scratch function, which writes the indexes at its end. `buf p` is the
word at byte `p`. -/
def withIndexes (T l inputs total : Nat) (buf : Nat → Nat) : Nat → Nat := fun p =>
  let start := total - T * (inputs * l)
  if start ≤ p ∧ p < start + T * (inputs * l) ∧ (p - start) % T = 0 then (p - start) / T % l else buf p

/-- crypto/ggsw.cuh:11-17 `device_batch_fft_ggsw_vector`, the address of the memory of block `b` when the shared memory is too
small: the code has `(double2 *)device_mem[b * degree]`, the byte itself (an `int8_t`) and not its address. -/
def fftAddress (bytes : BitVec 64 → BitVec 8) (deviceMem : BitVec 64) (b N : Nat) : BitVec 64 :=
  (bytes (deviceMem + BitVec.ofNat 64 (b * N))).signExtend 64

/-! ### The whole wop-PBS -/

/-- bit_extraction.cuh:132-148 `get_buffer_size_extract_bits`. -/
def extractSize (T N k n inputs : Nat) : Nat :=
  pad (T * inputs + T * ((k + 1) * N) + T * (k * N + 1) + T * (k * N + 1) + T * (n + 1) + T * (k * N + 1))

/-- The arrays of the bit extraction, in the order of their positions. -/
inductive ExtractName where
  | pbsScratch
  | lut
  | state
  | shifted
  | ks
  | pbs
  | indexes
  deriving DecidableEq, Repr

/-- bit_extraction.cuh:206-226, with the lengths that the bootstrap of `samples` ciphertexts uses (266-270 and
bootstrap_low_latency.cuh:171-174 and 234-236); `lb` is the number of levels of the bootstrap key. -/
def extractRegion (T N k n lb samples sm : Nat) : ExtractName → Region :=
  let lut := T * (lowScratch T N k lb samples sm / T)
  let state := lut + T * ((k + 1) * N)
  let shifted := state + T * (k * N + 1)
  let ks := shifted + T * (k * N + 1)
  let pbs := ks + T * (n + 1)
  let indexes := pbs + T * (k * N + 1)
  fun
  | .pbsScratch => ⟨.scratch, 0, lowScratch T N k lb samples sm, 16⟩
  | .lut => ⟨.scratch, lut, T * ((k + 1) * N), T⟩
  | .state => ⟨.scratch, state, T * (k * N + 1), T⟩
  | .shifted => ⟨.scratch, shifted, T * (k * N + 1), T⟩
  | .ks => ⟨.scratch, ks, T * (samples * (n + 1)), T⟩
  | .pbs => ⟨.scratch, pbs, T * (samples * (k * N + 1)), T⟩
  | .indexes => ⟨.scratch, indexes, T * samples, T⟩

/-- wop.cuh:195-204 `get_buffer_size_wop_pbs`. -/
def wopSize (T n bits : Nat) : Nat := pad (T * ((n + 1) * bits))

/-- wop.cuh:219-225, the part of the bit extraction; `lb` is the number of levels of the bootstrap key. -/
def extractPart (T N k n lb inputs sm : Nat) : Nat := extractSize T N k n inputs + lowScratch T N k lb inputs sm

/-- wop.cuh:259-267 and bit_extraction.cuh:172-176: the bytes that the scratch function sets to zero. -/
def zeroed (T N k n lb bits inputs sm p : Nat) : Prop :=
  wopSize T n bits ≤ p ∧ p < wopSize T n bits + extractPart T N k n lb inputs sm

/-- wop.cuh:290 and bit_extraction.cuh:206-212: the table of the bit extraction as the host function uses it. The masks are
its first `k N` words. -/
def lutStart (T N k lb inputs sm : Nat) : Nat := T * (lowScratch T N k lb inputs sm / T)

/-- wop.cuh:268-269, where the scratch function puts the part of the circuit bootstrap. -/
def cbsVpScratch (T N k n lb bits inputs sm : Nat) : Nat := wopSize T n bits + extractPart T N k n lb inputs sm

/-- wop.cuh:290-298 and 307-310, where the host function puts it. -/
def cbsVpHost (T N k n lb bits inputs sm : Nat) : Nat := extractPart T N k n lb inputs sm + wopSize T n bits

end Verif.Cuda.Wm
