import Verif.Cuda.Amortized
import Verif.Glwe.Model
/-
Model of the vertical packing of CUDA: the CMUX, the CMUX tree, the blind rotation and the sample extraction.

Source: /repo/concrete-cuda/cuda/src/vertical_packing.cuh, /repo/concrete-cuda/cuda/src/crypto/ggsw.cuh and
/repo/concrete-cuda/cuda/src/wop_bootstrap.cuh.

As for the bootstraps, the functions on polynomials are the sequential ones (C79), the transform of the GPU is a
parameter `Pbs.Transform`, and a list of ciphertexts is a function of its index. The blocks of a launch write
different ciphertexts of one buffer and only read the other one, so their order does not matter.
-/
namespace Verif.Cuda.Vp
open Verif.Pbs

variable {w : Nat}

/-- gadget.cuh:31-44, the constructor of `GadgetMatrix`. Unlike the bootstraps (`Am.gadgetState`), the CMUX
does not call `round_to_closest_multiple_inplace` before it. -/
def truncState (b l : Nat) (p : List (BitVec w)) : List (BitVec w) := p.map fun x : BitVec w => x >>> (w - b * l)

/-- vertical_packing.cuh:41-137 `cmux` with the GGSW of index `idx` of `key`: `m0 + GGSW (m1 - m0)`. -/
def cmux (T : Transform w) (N k b l : Nat) (key : List T.E) (idx : Nat) (m0 m1 : List (BitVec w)) : List (BitVec w) :=
  let sub := List.zipWith (fun p q => List.zipWith (· - ·) p q) (chunks N m1) (chunks N m0)
  let res := (Am.levelLoop T k b l key idx (sub.map (truncState b l), List.replicate (k + 1) T.zero)).2
  (zipUpdate T.addBack (chunks N m0) res).flatten

/-- vertical_packing.cuh:141-155 `add_padding_to_lut_async`: ciphertext `i` has a zero mask and the polynomial `i` of
the tables as its body. -/
def padded (N k : Nat) (lut : List (BitVec w)) (i : Nat) : List (BitVec w) := List.replicate (k * N) 0#w ++ block N lut i

/-- vertical_packing.cuh:175-210 `device_batch_cmux` on the grid `num` times `tau`: in each tree, ciphertext `i < num`
of the output is the CMUX of the ciphertexts `2 i` and `2 i + 1` of the input. -/
def layer (cm : List (BitVec w) → List (BitVec w) → List (BitVec w)) (numLut tau num : Nat)
    (input output : Nat → List (BitVec w)) : Nat → List (BitVec w) := fun p =>
  if p / numLut < tau ∧ p % numLut < num then
    cm (input (p / numLut * numLut + 2 * (p % numLut))) (input (p / numLut * numLut + (2 * (p % numLut) + 1)))
  else output p

/-- vertical_packing.cuh:349-377, the loop over the layers: the state is `d_buffer1` and `d_buffer2`, and layer `i`
uses the GGSW `i`. -/
def layers (cm : Nat → List (BitVec w) → List (BitVec w) → List (BitVec w)) (r tau : Nat)
    (bufs : (Nat → List (BitVec w)) × (Nat → List (BitVec w))) :
    (Nat → List (BitVec w)) × (Nat → List (BitVec w)) :=
  (List.range r).foldl (fun s i =>
    if i % 2 = 1 then (layer (cm i) (2 ^ r) tau (2 ^ (r - 1 - i)) s.2 s.1, s.2)
    else (s.1, layer (cm i) (2 ^ r) tau (2 ^ (r - 1 - i)) s.1 s.2)) bufs

/-- vertical_packing.cuh:293-384 `host_cmux_tree`: the `tau` outputs. `mem` is the previous content of the buffers. -/
def cmuxTree (T : Transform w) (N k b l r tau : Nat) (ggsws lut : List (BitVec w)) (mem : Nat → List (BitVec w)) :
    List (List (BitVec w)) :=
  if r = 0 then (List.range tau).map (padded N k lut)
  else
    let key := convert T N (ggsws.take (r * (l * ((k + 1) * ((k + 1) * N)))))
    let out := layers (cmux T N k b l key) r tau (fun i => if i < 2 ^ r * tau then padded N k lut i else mem i, mem)
    let output := if (r - 1) % 2 = 1 then out.1 else out.2
    (List.range tau).map fun i => output (i * 2 ^ r)

/-- vertical_packing.cuh:438-456, the loop of `device_blind_rotation_and_sample_extraction`: the state is the
accumulator and `monomial_degree`. -/
def rotate (cm : Nat → List (BitVec w) → List (BitVec w) → List (BitVec w)) (N mbr : Nat) (glwe : List (BitVec w)) :
    List (BitVec w) :=
  ((List.range mbr).reverse.foldl (fun (s : List (BitVec w) × Nat) i =>
    (cm i s.1 (Poly.listMonomialDiv N s.1 (2 ^ s.2)), s.2 + 1)) (glwe, 0)).1

/-- vertical_packing.cuh:407-468 for one block: `glwe` is its lookup table. -/
def rotateExtract (T : Transform w) (N k b l mbr : Nat) (key : List T.E) (glwe lweOut : List (BitVec w)) :
    Option (List (BitVec w)) :=
  Glwe.sampleExtract N (rotate (cmux T N k b l key) N mbr glwe) lweOut 0

/-- wop_bootstrap.cuh:146 and 60: the number of layers, a `uint32_t`. -/
def layerCount (inputs logN : Nat) : Nat := (inputs + 2 ^ 32 - logN) % 2 ^ 32

/-- wop_bootstrap.cuh:172-192: the CMUX tree and the blind rotation, on the GGSWs `ggsws` of the `inputs` bits. Output
`i` is in `lweOuts[i]`. `none` if the number of layers is too large for the `int` of vertical_packing.cuh:303: the
shift is then undefined. -/
def verticalPacking (T : Transform w) (N k b l logN inputs tau : Nat) (ggsws lut : List (BitVec w))
    (mem : Nat → List (BitVec w)) (lweOuts : List (List (BitVec w))) : Option (List (List (BitVec w))) :=
  let r := layerCount inputs logN
  if 31 ≤ r then none
  else
    let mbr := inputs - r
    let size := l * ((k + 1) * ((k + 1) * N))
    let key := convert T N ((ggsws.drop (r * size)).take (mbr * size))
    (List.zipWith (rotateExtract T N k b l mbr key) (cmuxTree T N k b l r tau ggsws lut mem) lweOuts).mapM id

end Verif.Cuda.Vp
