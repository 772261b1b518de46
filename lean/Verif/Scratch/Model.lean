import Verif.Engine.Checks
import Verif.Wop.Model
/-
Scratch memory of the Fourier backend: how much memory the functions announce, and what they take.

All paths are relative to concrete-core/src/backends/fft/private. Simplifications: products of sizes do not wrap (the
checked operations of the crate dyn_stack are modelled); `collect_aligned` takes what `make_aligned_with` takes for the
same number of elements.
-/
namespace Verif.Scratch

open Verif Verif.Csprng Verif.Engine

/-! ### The crate dyn_stack -/

/-- `dyn_stack::StackReq`, of version 0.8: a size and an alignment in bytes. -/
structure Req where
  size : Nat
  align : Nat
  deriving DecidableEq, Repr

/-- A `usize`, or `SizeOverflow`. -/
def checked (n : Nat) : Option Nat := if n < 2 ^ 64 then some n else none

/-- The smallest multiple of `a` that is at least `n`. -/
def alignUp (n a : Nat) : Nat := (n + (a - 1)) / a * a

/-- `StackReq::try_new_aligned::<T>(count, align)`, where `elt` is `size_of::<T>()`. -/
def Req.tryNewAligned (elt count align : Nat) : Option Req := (checked (elt * count)).map fun s => ⟨s, align⟩

/-- `StackReq::try_and`: both at the same time. -/
def Req.tryAnd (r s : Req) : Option Req := do
  let align := max r.align s.align
  let left ← checked (alignUp r.size align)
  let right ← checked (alignUp s.size align)
  let size ← checked (left + right)
  pure ⟨size, align⟩

/-- `StackReq::try_or`: one after the other. -/
def Req.tryOr (r s : Req) : Option Req := do
  let align := max r.align s.align
  let left ← checked (alignUp r.size align)
  let right ← checked (alignUp s.size align)
  pure ⟨max left right, align⟩

/-- `StackReq::try_all_of`. -/
def Req.tryAllOf (l : List Req) : Option Req := l.foldlM Req.tryAnd ⟨0, 1⟩

/-- `StackReq::try_any_of`. -/
def Req.tryAnyOf (l : List Req) : Option Req := l.foldlM Req.tryOr ⟨0, 1⟩

/-- `StackReq::unaligned_bytes_required`. -/
def Req.unalignedBytes (r : Req) : Option Nat := checked (r.size + (r.align - 1))

/-- What a function does with its stack. -/
inductive Use where
  /-- nothing -/
  | skip
  /-- `make_aligned_with`, `make_aligned_uninit`, `make_with` or `collect_aligned` of `count` elements of `elt` bytes;
  the rest of the stack is used by `k` -/
  | alloc (elt count align : Nat) (k : Use)
  /-- two uses of the same stack, the first one through `rb_mut()` -/
  | both (a b : Use)
  /-- the stack must be able to hold `r`: an assertion, or `plan.fwd` and `plan.inv` -/
  | hold (r : Req)

/-- `DynStack::can_hold`: the stack is the `len` bytes at the address `addr`. -/
def canHold (r : Req) (addr len : Nat) : Bool :=
  let off := alignUp addr r.align - addr
  off ≤ len && r.size ≤ len - off

/-- Everything fits. If not, `make_aligned_with`, `make_aligned_uninit` and `make_with` panic, and `collect_aligned`
panics or keeps only the elements that fit. `plan.fwd` and `plan.inv` of the crate concrete_fft are assumed to need what
`plan.fft_scratch()` returns. -/
def Use.fits : Use → Nat → Nat → Bool
  | .skip, _, _ => true
  | .alloc elt count align k, addr, len =>
    let off := alignUp addr align - addr
    off ≤ len && elt * count ≤ len - off &&
      k.fits (addr + off + elt * count) (len - off - elt * count)
  | .both a b, addr, len => a.fits addr len && b.fits addr len
  | .hold r, addr, len => canHold r addr len

/-- Uses of the same stack one after the other. -/
def Use.seq (l : List Use) : Use := l.foldr .both .skip

/-- A loop of `n` iterations. -/
def Use.loop (n : Nat) (u : Use) : Use := .seq (List.replicate n u)

/-! ### Constants -/

/-- `aligned_vec::CACHELINE_ALIGN` on x86_64 and aarch64. -/
def cacheline : Nat := 128

/-- `size_of::<c64>()`. -/
def c64 : Nat := 16

/-! ### Transforms (math/fft/mod.rs) -/

/-- An `FftView`: `fft_scratch()` of its plan, and its polynomial size (math/fft/mod.rs:343-345). -/
structure Fft where
  req : Req
  polySize : Nat

/-- math/fft/mod.rs:370-372 `forward_scratch`. -/
def forwardScratch (fft : Fft) : Option Req := some fft.req

/-- math/fft/mod.rs:375-382 `backward_scratch`. -/
def backwardScratch (fft : Fft) : Option Req := do
  fft.req.tryAnd (← Req.tryNewAligned c64 (fft.polySize / 2) cacheline)

/-- math/fft/mod.rs:476-496 `forward_with_conv`. -/
def forward (fft : Fft) : Use := .hold fft.req

/-- math/fft/mod.rs:501-522 `backward_with_conv`: `n` is the length of the Fourier polynomial. -/
def backward (fft : Fft) (n : Nat) : Use := .alloc c64 n cacheline (.hold fft.req)

/-! ### GGSW ciphertexts (crypto/ggsw.rs). `sz` is the size of a `Scalar` in bytes, `g` a GLWE size. -/

/-- crypto/ggsw.rs:255-257 and crypto/bootstrap.rs:145-147 `fill_with_forward_fourier_scratch`. -/
def fillWithForwardScratch (fft : Fft) : Option Req := forwardScratch fft

/-- crypto/ggsw.rs:262-284 `fill_with_forward_fourier`: `count` polynomials. -/
def fillWithForward (fft : Fft) (count : Nat) : Use := .loop count (forward fft)

/-- crypto/ggsw.rs:288-290 `fill_with_backward_fourier_scratch`. -/
def fillWithBackwardScratch (fft : Fft) : Option Req := backwardScratch fft

/-- crypto/ggsw.rs:295-321 `fill_with_backward_fourier`: `count` polynomials of size `N`. -/
def fillWithBackward (fft : Fft) (N count : Nat) : Use := .loop count (backward fft (N / 2))

/-- crypto/ggsw.rs:323-343 `external_product_scratch`. -/
def externalProductScratch (sz g N : Nat) (fft : Fft) : Option Req := do
  let standard ← Req.tryNewAligned sz (g * N) cacheline
  let fourier ← Req.tryNewAligned c64 (g * N / 2) cacheline
  let single ← Req.tryNewAligned c64 (N / 2) cacheline
  let substack3 ← forwardScratch fft
  let substack2 ← substack3.tryAnd single
  let substack1 ← substack2.tryAnd standard
  let substack0 ← Req.tryAnyOf [← substack1.tryAnd standard, ← backwardScratch fft]
  substack0.tryAnd fourier

/-- crypto/ggsw.rs:347-471 `external_product` (and 473-485 `collect_next_term`, math/decomposition.rs:27-47): the GGSW
ciphertext has `level` levels of `g` rows of polynomials of size `N`, the GLWE ciphertext and the output `g` polynomials
of size `N`, as the assertions at the beginning of the function say. -/
def externalProduct (fft : Fft) (sz g N level : Nat) : Use :=
  .alloc c64 (N / 2 * g) cacheline <|
    .both
      (.alloc sz (g * N) cacheline <|
        .loop level <|
          .alloc sz (g * N) cacheline <|
            .loop g <| .alloc c64 (N / 2) cacheline (forward fft))
      (if level = 0 ∨ g = 0 then .skip else .loop g (backward fft (N / 2)))

/-- crypto/ggsw.rs:684-690 `cmux_scratch`. -/
def cmuxScratch (sz g N : Nat) (fft : Fft) : Option Req := externalProductScratch sz g N fft

/-- crypto/ggsw.rs:693-708 `cmux`. -/
def cmux (fft : Fft) (sz g N level : Nat) : Use := externalProduct fft sz g N level

/-! ### Bootstrap (crypto/bootstrap.rs) -/

/-- crypto/bootstrap.rs:167-174 `blind_rotate_scratch`. -/
def blindRotateScratch (sz g N : Nat) (fft : Fft) : Option Req := do
  (← Req.tryNewAligned sz (g * N) cacheline).tryAnd (← cmuxScratch sz g N fft)

/-- crypto/bootstrap.rs:177-185 `bootstrap_scratch`. -/
def bootstrapScratch (sz g N : Nat) (fft : Fft) : Option Req := do
  (← blindRotateScratch sz g N fft).tryAnd (← Req.tryNewAligned sz (g * N) cacheline)

/-- crypto/bootstrap.rs:188-248 `blind_rotate`: one step per element of the mask that is not zero. -/
def blindRotate (fft : Fft) (sz g N level : Nat) (mask : List Bool) : Use :=
  .seq (mask.map fun nonzero => if nonzero then .alloc sz (g * N) cacheline (cmux fft sz g N level) else .skip)

/-- crypto/bootstrap.rs:250-272 `bootstrap`: `mask` tells which elements of the mask of the input are not zero. -/
def bootstrap (fft : Fft) (sz g N level : Nat) (mask : List Bool) : Use :=
  .alloc sz (g * N) cacheline (blindRotate fft sz g N level mask)

/-! ### Operations without padding bit (crypto/wop_pbs/mod.rs) -/

/-- crypto/wop_pbs/mod.rs:29-58 `extract_bits_scratch`. -/
def extractBitsScratch (sz lweDim kskOutDim g N : Nat) (fft : Fft) : Option Req := do
  let lweIn ← Req.tryNewAligned sz (lweDim + 1) cacheline
  let ks ← Req.tryNewAligned sz (kskOutDim + 1) cacheline
  let acc ← Req.tryNewAligned sz (g * N) cacheline
  let pbs ← Req.tryNewAligned sz ((g - 1) * N + 1) cacheline
  let bootstrap ← bootstrapScratch sz g N fft
  (← (← (← lweIn.tryAnd ks).tryAnd acc).tryAnd pbs).tryAnd (← Req.tryAnyOf [lweIn, bootstrap])

/-- crypto/wop_pbs/mod.rs:66-205 `extract_bits`: `lweDim` is the dimension of the input, `kskOutDim` the output dimension
of the keyswitch key, `g`, `N`, `level` belong to the bootstrap key; `masks` are the masks of the inputs of the
bootstraps, one per output ciphertext; the loop ends with the bit `bits - 1`, which is not bootstrapped. -/
def extractBits (fft : Fft) (sz lweDim kskOutDim g N level bits : Nat) (masks : List (List Bool)) : Use :=
  .alloc sz (lweDim + 1) cacheline <|
  .alloc sz (kskOutDim + 1) cacheline <|
  .alloc sz (g * N) cacheline <|
  .alloc sz ((g - 1) * N + 1) cacheline <|
  .seq ((if bits = 0 then masks else masks.take bits).zipIdx.map fun (mask, i) =>
    .both (.alloc sz (lweDim + 1) cacheline .skip)
      (if i + 1 = bits then .skip else bootstrap fft sz g N level mask))

/-- crypto/wop_pbs/mod.rs:316-333 `homomorphic_shift_boolean_scratch`. -/
def shiftScratch (sz lweSize N g : Nat) (fft : Fft) : Option Req := do
  (← (← Req.tryNewAligned sz lweSize cacheline).tryAnd (← Req.tryNewAligned sz (N * g) cacheline)).tryAnd
    (← bootstrapScratch sz g N fft)

/-- crypto/wop_pbs/mod.rs:339-404 `homomorphic_shift_boolean`. -/
def shift (fft : Fft) (sz lweSize g N level : Nat) (mask : List Bool) : Use :=
  .alloc sz lweSize cacheline <| .alloc sz (N * g) cacheline <| bootstrap fft sz g N level mask

/-- crypto/wop_pbs/mod.rs:207-217 `circuit_bootstrap_boolean_scratch`. -/
def circuitBootstrapScratch (sz lweSize bskOutSize N g : Nat) (fft : Fft) : Option Req := do
  (← Req.tryNewAligned sz bskOutSize cacheline).tryAnd (← shiftScratch sz lweSize N g fft)

/-- crypto/wop_pbs/mod.rs:223-314 `circuit_bootstrap_boolean`: one shift per level of the output, `masks` gives their
masks. -/
def circuitBootstrap (fft : Fft) (sz lweSize bskOutSize g N level : Nat) (masks : List (List Bool)) : Use :=
  .alloc sz bskOutSize cacheline <| .seq (masks.map (shift fft sz lweSize g N level))

/-- crypto/wop_pbs/mod.rs:624-642 `cmux_tree_memory_optimized_scratch`. A `usize` has 8 bytes. -/
def cmuxTreeScratch (sz N g layers : Nat) (fft : Fft) : Option Req := do
  let t ← Req.tryNewAligned sz (N * g * layers) cacheline
  Req.tryAllOf [t, t, ← Req.tryNewAligned 8 layers 8, t, ← externalProductScratch sz g N fft]

/-- A debug assertion that the stack can hold what the function announces. -/
def debugHold (bld : Build) (r : Option Req) : Use :=
  match bld, r with
  | .debug, some r => .hold r
  | _, _ => .skip

/-- crypto/wop_pbs/mod.rs:646-774 `cmux_tree_memory_optimized`: `steps` is the number of CMUX made. -/
def cmuxTree (bld : Build) (fft : Fft) (sz g N level layers steps : Nat) : Use :=
  if layers = 0 then .skip
  else
    .both (debugHold bld (cmuxTreeScratch sz N g layers fft)) <|
    .alloc sz (N * g * layers) cacheline <|
    .alloc sz (N * g * layers) cacheline <|
    .alloc 8 layers 8 <|
    .loop steps <| .alloc sz (N * g) cacheline <| externalProduct fft sz g N level

/-- crypto/wop_pbs/mod.rs:1021-1030 `blind_rotate_scratch`. -/
def blindRotatePackingScratch (sz g N : Nat) (fft : Fft) : Option Req := do
  Req.tryAllOf [← Req.tryNewAligned sz (N * g) cacheline, ← cmuxScratch sz g N fft]

/-- crypto/wop_pbs/mod.rs:1032-1053 `blind_rotate`: one CMUX per GGSW ciphertext. -/
def blindRotatePacking (fft : Fft) (sz g N level count : Nat) : Use :=
  .loop count <| .alloc sz (N * g) cacheline <| cmux fft sz g N level

/-- crypto/wop_pbs/mod.rs:933-943 and 984-992: the number of layers of the CMUX tree. -/
def treeLayers (bld : Build) (sz lutCount ggswCount : Nat) : Option Nat :=
  (Wop.logLutNumber bld (sz * 8) lutCount).map fun r => if r > ggswCount then 0 else r

/-- crypto/wop_pbs/mod.rs:924-958 `vertical_packing_scratch`. The first `none` is the panic of a subtraction. -/
def verticalPackingScratch (bld : Build) (sz g N lutCount ggswCount : Nat) (fft : Fft) : Option (Option Req) :=
  (treeLayers bld sz lutCount ggswCount).map fun layers => do
    let res ← Req.tryNewAligned sz (N * g) cacheline
    let rotate ← blindRotatePackingScratch sz g N fft
    let tree ← cmuxTreeScratch sz N g layers fft
    Req.tryAllOf [res, ← Req.tryAnyOf [rotate, tree]]

/-- crypto/wop_pbs/mod.rs:961-1019 `vertical_packing`: `steps` is the number of CMUX of the tree. -/
def verticalPacking (bld : Build) (fft : Fft) (sz g N level lutCount ggswCount steps : Nat) : Option Use :=
  (treeLayers bld sz lutCount ggswCount).map fun layers =>
    .alloc sz (N * g) cacheline <|
      .both (cmuxTree bld fft sz g N level layers steps) (blindRotatePacking fft sz g N level (ggswCount - layers))

/-- crypto/wop_pbs/mod.rs:776-823 `circuit_bootstrap_boolean_vertical_packing_scratch`. The first `none` is a panic: a
division by zero or the subtraction of `vertical_packing_scratch`. `g` is the GLWE size given by the caller. -/
def cbsVerticalPackingScratch (bld : Build) (sz inCount outCount lweSize lutCount bskOutSize N g levelCbs : Nat)
    (fft : Fft) : Option (Option Req) :=
  if outCount = 0 then none
  else
    (verticalPackingScratch bld sz g N (lutCount / outCount) inCount fft).map fun vp => do
      let list ← Req.tryNewAligned c64 (inCount * N / 2 * g * g * levelCbs) cacheline
      let res ← Req.tryNewAligned sz (N * g * g * levelCbs) cacheline
      let cbs ← circuitBootstrapScratch sz lweSize bskOutSize N g fft
      let fwd ← fillWithForwardScratch fft
      Req.tryAllOf [list, res, ← Req.tryAnyOf [cbs, fwd, ← vp]]

/-- crypto/wop_pbs/mod.rs:831-921 `circuit_bootstrap_boolean_vertical_packing`: a circuit bootstrap and a conversion per
input (`masks` are the masks of the bootstraps of each), then a vertical packing per output (`steps` is the number of
CMUX of the tree of each). `lutCount` is the number of polynomials of the lookup tables. -/
def cbsVerticalPacking (bld : Build) (fft : Fft) (sz inCount outCount lweSize lutCount levelCbs : Nat) (bsk : M.Bsk)
    (pfpksk : M.Pfpksk) (masks : List (List (List Bool))) (steps : List Nat) : Option Use :=
  if outCount = 0 then none
  else do
    let outG := pfpksk.outGlweDim + 1
    let outN := pfpksk.outPolySize
    let vps ← (steps.take outCount).mapM (verticalPacking bld fft sz outG outN levelCbs (lutCount / outCount) inCount)
    let announced ← cbsVerticalPackingScratch bld sz inCount outCount lweSize lutCount (bsk.outDim + 1) outN
      (bsk.glweDim + 1) levelCbs fft
    pure <|
      .both (debugHold bld announced) <|
      .alloc c64 (inCount * outN / 2 * outG * outG * levelCbs) cacheline <|
      .alloc sz (outN * outG * outG * levelCbs) cacheline <|
      .both
        (.seq ((masks.take inCount).map fun m =>
          .both (circuitBootstrap fft sz lweSize (bsk.outDim + 1) (bsk.glweDim + 1) bsk.polySize bsk.level m)
            (fillWithForward fft (outG * outG * levelCbs))))
        (.seq vps)

/-! ### Engines (../implementation/engines/fft_engine) -/

/-- What becomes of the memory of an engine call. -/
inductive Outcome where
  /-- everything fits -/
  | fits
  /-- something does not fit -/
  | short
  /-- the announced size overflows: `unwrap` panics -/
  | overflow
  deriving DecidableEq, Repr

/-- fft_engine/mod.rs:44-50: the memory is resized to what is announced, at any address, and a stack is made of it. -/
def engineCall (announced : Option Req) (use : Use) (addr : Nat) : Outcome :=
  match announced.bind Req.unalignedBytes with
  | none => .overflow
  | some n => if use.fits addr n then .fits else .short

namespace Engine

/-- `Fft::new(N)`: `plan N` is `fft_scratch()` of the plan of size N (math/fft/mod.rs:65-117). -/
def newFft (plan : Nat → Req) (N : Nat) : Fft := ⟨plan N, N⟩

/-- lwe_bootstrap_key_conversion.rs:67-108 (and 159-200): `inDim` GGSW ciphertexts are converted. -/
def bskConversion (plan : Nat → Req) (input : M.Bsk) (addr : Nat) : Outcome :=
  let fft := newFft plan input.polySize
  engineCall (fillWithForwardScratch fft)
    (.loop input.inDim (fillWithForward fft (input.level * (input.glweDim + 1) * (input.glweDim + 1)))) addr

/-- ggsw_ciphertext_discarding_conversion.rs:93-110 (and 188-205), to the Fourier domain. -/
def ggswConversion (plan : Nat → Req) (input : M.Ggsw) (addr : Nat) : Outcome :=
  let fft := newFft plan input.polySize
  engineCall (fillWithForwardScratch fft)
    (fillWithForward fft (input.level * (input.glweDim + 1) * (input.glweDim + 1))) addr

/-- ggsw_ciphertext_discarding_conversion.rs:221-238 (and 313-330), from the Fourier domain. -/
def ggswBackConversion (plan : Nat → Req) (output input : M.Ggsw) (addr : Nat) : Outcome :=
  let fft := newFft plan input.polySize
  engineCall (fillWithBackwardScratch fft)
    (fillWithBackward fft output.polySize (input.level * (input.glweDim + 1) * (input.glweDim + 1))) addr

/-- glwe_ciphertext_ggsw_ciphertext_discarding_external_product.rs:102-133 (and 220-251). -/
def externalProduct (plan : Nat → Req) (sz : Nat) (glwe : M.Glwe) (ggsw : M.Ggsw) (addr : Nat) : Outcome :=
  let fft := newFft plan glwe.polySize
  engineCall (externalProductScratch sz (glwe.glweDim + 1) glwe.polySize fft)
    (Scratch.externalProduct fft sz (ggsw.glweDim + 1) ggsw.polySize ggsw.level) addr

/-- glwe_ciphertexts_ggsw_ciphertext_fusing_cmux.rs:106-130 (and 222-246). -/
def cmux (plan : Nat → Req) (sz : Nat) (glweInput : M.Glwe) (ggsw : M.Ggsw) (addr : Nat) : Outcome :=
  let fft := newFft plan glweInput.polySize
  engineCall (cmuxScratch sz (glweInput.glweDim + 1) glweInput.polySize fft)
    (Scratch.cmux fft sz (ggsw.glweDim + 1) ggsw.polySize ggsw.level) addr

/-- lwe_ciphertext_discarding_bootstrap.rs:94-115 (and 194-215, 311-332, 428-449). -/
def bootstrap (plan : Nat → Req) (sz : Nat) (acc : M.Glwe) (bsk : M.Bsk) (mask : List Bool) (addr : Nat) : Outcome :=
  let fft := newFft plan acc.polySize
  engineCall (bootstrapScratch sz (acc.glweDim + 1) acc.polySize fft)
    (Scratch.bootstrap fft sz (bsk.glweDim + 1) bsk.polySize bsk.level (mask.take bsk.inDim)) addr

/-- lwe_ciphertext_discarding_bit_extraction.rs:135-167 (and 284-316, 444-476, 604-636). -/
def extractBits (plan : Nat → Req) (sz : Nat) (input : M.Lwe) (bsk : M.Bsk) (ksk : M.Ksk) (bits : Nat)
    (masks : List (List Bool)) (addr : Nat) : Outcome :=
  let fft := newFft plan bsk.polySize
  engineCall (extractBitsScratch sz input.lweDim ksk.outDim (bsk.glweDim + 1) bsk.polySize fft)
    (Scratch.extractBits fft sz input.lweDim ksk.outDim (bsk.glweDim + 1) bsk.polySize bsk.level bits masks) addr

/-- lwe_ciphertext_discarding_circuit_bootstrap_boolean.rs:143-173 (and 293-323). -/
def circuitBootstrap (plan : Nat → Req) (sz : Nat) (input : M.Lwe) (bsk : M.Bsk) (masks : List (List Bool))
    (addr : Nat) : Outcome :=
  let fft := newFft plan bsk.polySize
  engineCall
    (circuitBootstrapScratch sz (input.lweDim + 1) (bsk.outDim + 1) bsk.polySize (bsk.glweDim + 1) fft)
    (Scratch.circuitBootstrap fft sz (input.lweDim + 1) (bsk.outDim + 1) (bsk.glweDim + 1) bsk.polySize bsk.level
      masks) addr

/-- lwe_ciphertext_vector_discarding_circuit_bootstrap_boolean_vertical_packing.rs:236-280 (and 483-527). `none` is the
panic of a division or of a subtraction. -/
def verticalPacking (bld : Build) (plan : Nat → Req) (sz : Nat) (input output : M.LweVec) (bsk : M.Bsk) (luts : M.Vec)
    (levelCbs : Nat) (pfpksk : M.Pfpksk) (masks : List (List (List Bool))) (steps : List Nat) (addr : Nat) :
    Option Outcome := do
  let fft := newFft plan bsk.polySize
  let lutCount := luts.count / bsk.polySize
  let announced ← cbsVerticalPackingScratch bld sz input.count output.count (input.lweDim + 1) lutCount
    (bsk.outDim + 1) pfpksk.outPolySize (bsk.glweDim + 1) levelCbs fft
  let use ← cbsVerticalPacking bld fft sz input.count output.count (input.lweDim + 1) lutCount levelCbs bsk pfpksk
    masks steps
  pure (engineCall announced use addr)

end Engine

end Verif.Scratch
