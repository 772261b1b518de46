import Verif.Fft.Simd
import Verif.Encode.Model
import Verif.Pbs.Model
/-
Model of the floating-point Fourier transform of polynomials,
/repo/concrete-core/src/backends/fft/private/math/fft/{mod,x86}.rs, and of the products in the Fourier
domain, /repo/concrete-core/src/backends/fft/private/crypto/ggsw.rs:500-638, in binary64 arithmetic.

The complex DFT itself is computed by a `Plan` of the crate concrete_fft, which is not part of the
repository: it is a parameter, as is the platform's `sin_cos`.

SIMD registers are lists of lanes. A vectorised loop stores `n / L` blocks of `L` results; the elements past
the last block are not stored. When the destination is uninitialised memory they are left out of the result.
-/
namespace Verif.Fft
open Verif.Float Verif.Encode

/-- fft/private/mod.rs: `c64`, `num_complex::Complex<f64>`. -/
structure C64 where
  re : F64
  im : F64
  deriving DecidableEq

namespace C64

/-- num_complex: product of two complex numbers. -/
def mul (a b : C64) : C64 :=
  ⟨(a.re.mul b.re).sub (a.im.mul b.im), (a.re.mul b.im).add (a.im.mul b.re)⟩

/-- num_complex: sum of two complex numbers. -/
def add (a b : C64) : C64 := ⟨a.re.add b.re, a.im.add b.im⟩

/-- num_complex: product of a complex number by a float. -/
def scale (a : C64) (t : F64) : C64 := ⟨a.re.mul t, a.im.mul t⟩

/-- `c64 { re, im: -im }`. -/
def conj (a : C64) : C64 := ⟨a.re, a.im.neg⟩

end C64

/-- concrete_fft `Plan`: an in-place transform and its unnormalised inverse. -/
structure Plan where
  fwd : List C64 → List C64
  inv : List C64 → List C64

/-- The instruction sets the dispatchers ask for (`is_x86_feature_detected!`), whether the target is x86,
and whether the feature `backend_fft_nightly_avx512` is enabled. -/
structure Cpu where
  x86 : Bool
  nightly : Bool
  avx512f : Bool
  avx512dq : Bool
  avx2 : Bool
  fma : Bool

/-- Which implementation a dispatcher chooses. -/
inductive Isa where
  | scalar
  | fma
  | avx512
  deriving DecidableEq

/-- x86.rs:807-818 `convert_forward_integer_u32`, 836-847 `convert_forward_integer_u64`, mod.rs:241-254. -/
def forwardIsa (w : Nat) (c : Cpu) : Isa :=
  if !c.x86 then .scalar
  else if w = 32 then
    if c.nightly && c.avx512f then .avx512 else if c.fma then .fma else .scalar
  else
    if c.nightly && (c.avx512f && c.avx512dq) then .avx512 else if c.avx2 && c.fma then .fma else .scalar

/-- x86.rs:875-891 `convert_add_backward_torus_u32`, 919-935 `convert_add_backward_torus_u64`,
mod.rs:323-338. -/
def backwardIsa (w : Nat) (c : Cpu) : Isa :=
  if !c.x86 then .scalar
  else if w = 32 then
    if c.nightly && c.avx512f then .avx512 else if c.fma then .fma else .scalar
  else
    if c.nightly && c.avx512f then .avx512 else if c.avx2 && c.fma then .fma else .scalar

/-- ggsw.rs:656-670 `update_with_fmadd`. -/
def fmaddIsa (c : Cpu) : Isa :=
  if !c.x86 then .scalar
  else if c.nightly && c.avx512f then .avx512 else if c.fma then .fma else .scalar

/-! ### Registers -/

/-- A register: its lanes, from the lowest one. -/
abbrev Reg := List F64

/-- `_mm256_loadu_pd` and the like: `L` consecutive values from index `i`. -/
def loadu {α : Type} (L : Nat) (xs : List α) (i : Nat) : List α := (xs.drop i).take L

/-- The floats of consecutive complex numbers, as they are in memory. -/
def floats (zs : List C64) : Reg := zs.flatMap fun z => [z.re, z.im]

/-- Consecutive floats seen as complex numbers. -/
def complexes : Reg → List C64
  | re :: im :: rest => ⟨re, im⟩ :: complexes rest
  | _ => []

/-- `_mm_unpacklo_pd`, `_mm256_unpacklo_pd`, `_mm512_unpacklo_pd`: the even lanes of both operands,
interleaved. -/
def unpacklo : Reg → Reg → Reg
  | a0 :: _ :: as, b0 :: _ :: bs => a0 :: b0 :: unpacklo as bs
  | _, _ => []

/-- `_mm_unpackhi_pd`, `_mm256_unpackhi_pd`, `_mm512_unpackhi_pd`: the odd lanes. -/
def unpackhi : Reg → Reg → Reg
  | _ :: a1 :: as, _ :: b1 :: bs => a1 :: b1 :: unpackhi as bs
  | _, _ => []

/-- `_mm256_permute_pd::<0b0101>`, `_mm512_permute_pd::<0b01010101>`: the lanes of each pair are swapped. -/
def swapPairs : Reg → Reg
  | x0 :: x1 :: xs => x1 :: x0 :: swapPairs xs
  | _ => []

/-- `_mm256_permute2f128_pd::<0b00100000>`: the low halves of both operands. -/
def lowHalves (a b : Reg) : Reg := a.take 2 ++ b.take 2

/-- `_mm256_permute2f128_pd::<0b00110001>`: the high halves of both operands. -/
def highHalves (a b : Reg) : Reg := a.drop 2 ++ b.drop 2

/-- `_mm256_insertf128_pd::<0b1>(_mm256_castpd128_pd256(a), b)`. -/
def insertHigh (a b : Reg) : Reg := a ++ b

/-- `_mm512_permutex2var_pd`: lane `k` is lane `idx[k]` of the 16 lanes of both operands. -/
def permutex2var (a : Reg) (idx : List Nat) (b : Reg) : Reg := idx.map fun k => (a ++ b).getD k .nan

/-- `_mm256_mul_pd`, `_mm512_mul_pd`. -/
def mulPd (a b : Reg) : Reg := List.zipWith F64.mul a b

/-- `_mm256_sub_pd`, `_mm512_sub_pd`. -/
def subPd (a b : Reg) : Reg := List.zipWith F64.sub a b

/-- `_mm256_round_pd` with `_MM_FROUND_NINT`, `_mm512_roundscale_pd` with `_MM_FROUND_TO_NEAREST_INT`. -/
def roundPd (a : Reg) : Reg := a.map F64.roundEven

/-- `_mm256_fmadd_pd`, `_mm512_fmadd_pd`: `a * b + c`. -/
def fmaddPd (a b c : Reg) : Reg := List.zipWith (fun x c => x c) (List.zipWith F64.fma a b) c

/-- `_mm256_fmsub_pd`, `_mm512_fmsub_pd`: `a * b - c`. -/
def fmsubPd (a b c : Reg) : Reg := fmaddPd a b (c.map F64.neg)

/-- `_mm256_fnmadd_pd`, `_mm512_fnmadd_pd`: `-(a * b) + c`. -/
def fnmaddPd (a b c : Reg) : Reg := fmaddPd (a.map F64.neg) b c

/-- `_mm256_fmaddsub_pd`, `_mm512_fmaddsub_pd`: `a * b - c` on the even lanes, `a * b + c` on the odd ones. -/
def fmaddsubPd : Reg → Reg → Reg → Reg
  | a0 :: a1 :: as, b0 :: b1 :: bs, c0 :: c1 :: cs =>
    F64.fma a0 b0 c0.neg :: F64.fma a1 b1 c1 :: fmaddsubPd as bs cs
  | _, _, _ => []

/-- A vectorised loop `for i in 0..n / L { let i = L * i; … }` whose body stores `L` elements: the old
content of the destination remains past the last block. -/
def storeBlocks {α : Type} (L n : Nat) (block : Nat → List α) (old : List α) : List α :=
  (List.range (n / L)).flatMap (fun i => block (L * i)) ++ old.drop (L * (n / L))

/-! ### Twisting factors -/

/-- `core::f64::consts::PI`. -/
def piF : F64 := .fin (884279719003555 / 281474976710656)

/-- mod.rs:63-74 `Twisties::new`; `sinCos` is the platform's `f64::sin_cos`. -/
def twisties (sinCos : F64 → F64 × F64) (n : Nat) : List C64 :=
  let unit := piF.div ((F64.fin 2).mul (F64.ofNat n))
  (List.range n).map fun i =>
    let sc := sinCos ((F64.ofNat i).mul unit)
    ⟨sc.2, sc.1⟩

/-! ### Conversions to the Fourier domain -/

variable {w : Nat}

/-- mod.rs:195-208: one element of `convert_forward_torus`. -/
def torusElt (re im : BitVec w) (t : C64) : C64 :=
  let normalization := F64.powi2 (-(w : ℤ))
  (C64.mk ((ofSigned re).mul normalization) ((ofSigned im).mul normalization)).mul t

/-- mod.rs:186-209 `convert_forward_torus`. -/
def convertForwardTorus (re im : List (BitVec w)) (tw : List C64) : List C64 :=
  List.zipWith (fun x t => torusElt x.1 x.2 t) (re.zip im) tw

/-- mod.rs:217-231: one element of `convert_forward_integer_scalar`. -/
def integerElt (re im : BitVec w) (t : C64) : C64 := (C64.mk (ofSigned re) (ofSigned im)).mul t

/-- mod.rs:211-232 `convert_forward_integer_scalar`. -/
def convertForwardIntegerScalar (re im : List (BitVec w)) (tw : List C64) : List C64 :=
  List.zipWith (fun x t => integerElt x.1 x.2 t) (re.zip im) tw

/-- x86.rs:366-392, 433-459: the body of the AVX loops, after the conversion of the integers. -/
def integerBlockFma (inRe inIm wRe wIm : Reg) : List C64 :=
  let outRe := fmsubPd inRe wRe (mulPd inIm wIm)
  let outIm := fmaddPd inRe wIm (mulPd inIm wRe)
  let lo := unpacklo outRe outIm
  let hi := unpackhi outRe outIm
  let out0 := lowHalves lo hi
  let out1 := highHalves lo hi
  complexes (out0 ++ out1)

/-- x86.rs:230-257, 299-326: the body of the AVX-512 loops, after the conversion of the integers. -/
def integerBlockAvx512 (inRe inIm wRe wIm : Reg) : List C64 :=
  let outRe := fmsubPd inRe wRe (mulPd inIm wIm)
  let outIm := fmaddPd inRe wIm (mulPd inIm wRe)
  let idx0 := [0b0000, 0b1000, 0b0001, 0b1001, 0b0010, 0b1010, 0b0011, 0b1011]
  let idx1 := [0b0100, 0b1100, 0b0101, 0b1101, 0b0110, 0b1110, 0b0111, 0b1111]
  let out0 := permutex2var outRe idx0 outIm
  let out1 := permutex2var outRe idx1 outIm
  complexes (out0 ++ out1)

/-- The conversion of the lanes: `_mm256_cvtepi32_pd` for `u32` (x86.rs:357), `mm256_cvtepi64_pd` for `u64`
(x86.rs:424). -/
def cvtIntFma (x : BitVec w) : F64 :=
  if h : w = 64 then cvtepi64Pd (x.cast h) else ofSigned x

/-- x86.rs:334-394 `convert_forward_integer_u32_fma`, 401-461 `convert_forward_integer_u64_avx2_fma`. -/
def convertForwardIntegerFma (re im : List (BitVec w)) (tw : List C64) : List C64 :=
  storeBlocks 4 re.length (fun i => integerBlockFma
    ((loadu 4 re i).map cvtIntFma) ((loadu 4 im i).map cvtIntFma)
    (loadu 4 (tw.map C64.re) i) (loadu 4 (tw.map C64.im) i)) []

/-- x86.rs:198-259 `convert_forward_integer_u32_avx512f`, 267-328
`convert_forward_integer_u64_avx512f_avx512dq`. -/
def convertForwardIntegerAvx512 (re im : List (BitVec w)) (tw : List C64) : List C64 :=
  storeBlocks 8 re.length (fun i => integerBlockAvx512
    ((loadu 8 re i).map ofSigned) ((loadu 8 im i).map ofSigned)
    (loadu 8 (tw.map C64.re) i) (loadu 8 (tw.map C64.im) i)) []

/-- mod.rs:235-255 `convert_forward_integer`. -/
def convertForwardInteger (c : Cpu) (re im : List (BitVec w)) (tw : List C64) : List C64 :=
  match forwardIsa w c with
  | .scalar => convertForwardIntegerScalar re im tw
  | .fma => convertForwardIntegerFma re im tw
  | .avx512 => convertForwardIntegerAvx512 re im tw

/-! ### Conversions from the Fourier domain -/

/-- mod.rs:267-271, 293-297: one element of the scalar backward conversions. -/
def backElt (n : Nat) (z t : C64) : C64 :=
  let normalization := (F64.fin 1).div (F64.ofNat n)
  z.mul (t.conj.scale normalization)

/-- mod.rs:258-277 `convert_backward_torus`: the two halves of the polynomial. -/
def convertBackwardTorus (w : Nat) (inp tw : List C64) : List (BitVec w) × List (BitVec w) :=
  let tmp := List.zipWith (backElt inp.length) inp tw
  (tmp.map fun z => fromTorus w z.re, tmp.map fun z => fromTorus w z.im)

/-- mod.rs:284-306 `convert_add_backward_torus_scalar`. -/
def convertAddBackwardTorusScalar (re im : List (BitVec w)) (inp tw : List C64) :
    List (BitVec w) × List (BitVec w) :=
  let tmp := List.zipWith (backElt inp.length) inp tw
  (List.zipWith (fun o z => o + fromTorus w z.re) re tmp, List.zipWith (fun o z => o + fromTorus w z.im) im tmp)

/-- x86.rs:505-519, 675-689: the common part of the prologues; `inpRe` and `inpIm` are the parts of the
inputs. -/
def prologue (normalization scaling : F64) (wRe wIm inpRe inpIm : Reg) : Reg × Reg :=
  let wRe := wRe.map (F64.mul normalization)
  let wIm := wIm.map (F64.mul normalization)
  let mulRe := fmaddPd inpRe wRe (mulPd inpIm wIm)
  let mulIm := fnmaddPd inpRe wIm (mulPd inpIm wRe)
  let fractRe := subPd mulRe (roundPd mulRe)
  let fractIm := subPd mulIm (roundPd mulIm)
  let fractRe := roundPd (fractRe.map (F64.mul scaling))
  let fractIm := roundPd (fractIm.map (F64.mul scaling))
  (fractRe, fractIm)

/-- x86.rs:641-690 `convert_torus_prologue_fma`. -/
def prologueFma (normalization scaling : F64) (tw inp : List C64) (i : Nat) : Reg × Reg :=
  let inp0 := floats (loadu 1 inp i)
  let inp1 := floats (loadu 1 inp (i + 1))
  let inp2 := floats (loadu 1 inp (i + 2))
  let inp3 := floats (loadu 1 inp (i + 3))
  let inpRe01 := unpacklo inp0 inp1
  let inpIm01 := unpackhi inp0 inp1
  let inpRe23 := unpacklo inp2 inp3
  let inpIm23 := unpackhi inp2 inp3
  let inpRe := insertHigh inpRe01 inpRe23
  let inpIm := insertHigh inpIm01 inpIm23
  prologue normalization scaling (loadu 4 (tw.map C64.re) i) (loadu 4 (tw.map C64.im) i) inpRe inpIm

/-- x86.rs:475-520 `convert_torus_prologue_avx512f`. -/
def prologueAvx512 (normalization scaling : F64) (tw inp : List C64) (i : Nat) : Reg × Reg :=
  let inp0 := floats (loadu 4 inp i)
  let inp1 := floats (loadu 4 inp (i + 4))
  let idx0 := [0b0000, 0b0010, 0b0100, 0b0110, 0b1000, 0b1010, 0b1100, 0b1110]
  let idx1 := [0b0001, 0b0011, 0b0101, 0b0111, 0b1001, 0b1011, 0b1101, 0b1111]
  let inpRe := permutex2var inp0 idx0 inp1
  let inpIm := permutex2var inp0 idx1 inp1
  prologue normalization scaling (loadu 8 (tw.map C64.re) i) (loadu 8 (tw.map C64.im) i) inpRe inpIm

/-- The conversion of the lanes to integers: `_mm256_cvtpd_epi32` for `u32` (x86.rs:728),
`mm256_cvtpd_epi64` for `u64` (x86.rs:782). -/
def cvtTorusFma (w : Nat) (x : F64) : BitVec w :=
  if w = 64 then (cvtpdEpi64 (toBits x)).setWidth w else (cvtpdEpi32 x).setWidth w

/-- The same with AVX-512: `_mm512_cvtpd_epi32` (x86.rs:559), `mm512_cvtpd_epi64` (x86.rs:613). -/
def cvtTorusAvx512 (w : Nat) (x : F64) : BitVec w :=
  if w = 64 then (cvtpdEpi64Avx512 (toBits x)).setWidth w else (cvtpdEpi32 x).setWidth w

/-- x86.rs:699-743 `convert_add_backward_torus_u32_fma`, 753-797 `convert_add_backward_torus_u64_fma`. -/
def convertAddBackwardTorusFma (re im : List (BitVec w)) (inp tw : List C64) :
    List (BitVec w) × List (BitVec w) :=
  let n := re.length
  let normalization := (F64.fin 1).div (F64.ofNat n)
  let scaling := F64.powi2 w
  (storeBlocks 4 n (fun i => List.zipWith (fun f o => cvtTorusFma w f + o)
      (prologueFma normalization scaling tw inp i).1 (loadu 4 re i)) re,
   storeBlocks 4 n (fun i => List.zipWith (fun f o => cvtTorusFma w f + o)
      (prologueFma normalization scaling tw inp i).2 (loadu 4 im i)) im)

/-- x86.rs:530-574 `convert_add_backward_torus_u32_avx512f`, 584-628
`convert_add_backward_torus_u64_avx512f`. -/
def convertAddBackwardTorusAvx512 (re im : List (BitVec w)) (inp tw : List C64) :
    List (BitVec w) × List (BitVec w) :=
  let n := re.length
  let normalization := (F64.fin 1).div (F64.ofNat n)
  let scaling := F64.powi2 w
  (storeBlocks 8 n (fun i => List.zipWith (fun f o => cvtTorusAvx512 w f + o)
      (prologueAvx512 normalization scaling tw inp i).1 (loadu 8 re i)) re,
   storeBlocks 8 n (fun i => List.zipWith (fun f o => cvtTorusAvx512 w f + o)
      (prologueAvx512 normalization scaling tw inp i).2 (loadu 8 im i)) im)

/-- mod.rs:317-339 `convert_add_backward_torus`. -/
def convertAddBackwardTorus (c : Cpu) (re im : List (BitVec w)) (inp tw : List C64) :
    List (BitVec w) × List (BitVec w) :=
  match backwardIsa w c with
  | .scalar => convertAddBackwardTorusScalar re im inp tw
  | .fma => convertAddBackwardTorusFma re im inp tw
  | .avx512 => convertAddBackwardTorusAvx512 re im inp tw

/-! ### Transforms of polynomials -/

/-- mod.rs:395-403 `forward_as_torus`, 476-496 `forward_with_conv`. -/
def forwardAsTorus (plan : Plan) (tw : List C64) (p : List (BitVec w)) : List C64 :=
  plan.fwd (convertForwardTorus (p.take (p.length / 2)) (p.drop (p.length / 2)) tw)

/-- mod.rs:416-424 `forward_as_integer`, 476-496 `forward_with_conv`. -/
def forwardAsInteger (c : Cpu) (plan : Plan) (tw : List C64) (p : List (BitVec w)) : List C64 :=
  plan.fwd (convertForwardInteger c (p.take (p.length / 2)) (p.drop (p.length / 2)) tw)

/-- mod.rs:436-444 `backward_as_torus`, 501-522 `backward_with_conv`. -/
def backwardAsTorus (w : Nat) (plan : Plan) (tw : List C64) (fourier : List C64) : List (BitVec w) :=
  let r := convertBackwardTorus w (plan.inv fourier) tw
  r.1 ++ r.2

/-- mod.rs:456-471 `add_backward_as_torus`, 501-522 `backward_with_conv`. -/
def addBackwardAsTorus (c : Cpu) (plan : Plan) (tw : List C64) (out : List (BitVec w))
    (fourier : List C64) : List (BitVec w) :=
  let r := convertAddBackwardTorus c (out.take (out.length / 2)) (out.drop (out.length / 2))
    (plan.inv fourier) tw
  r.1 ++ r.2

/-! ### Products in the Fourier domain -/

/-- ggsw.rs:619-638 `update_with_fmadd_scalar`; `none` is an uninitialised output. -/
def fmaddScalar (out : Option (List C64)) (lhs rhs : List C64) : List C64 :=
  match out with
  | none => List.zipWith C64.mul lhs rhs
  | some out => List.zipWith C64.add out (List.zipWith C64.mul lhs rhs)

/-- ggsw.rs:582-590, 521-528: a block of products, written. -/
def mulBlock (ab xy : Reg) : List C64 :=
  let aa := unpacklo ab ab
  let bb := unpackhi ab ab
  let yx := swapPairs xy
  complexes (fmaddsubPd aa xy (mulPd bb yx))

/-- ggsw.rs:595-607, 534-546: a block of products, accumulated. -/
def mulAddBlock (out ab xy : Reg) : List C64 :=
  let aa := unpacklo ab ab
  let bb := unpackhi ab ab
  let yx := swapPairs xy
  complexes (fmaddsubPd aa xy (fmaddsubPd bb yx out))

/-- ggsw.rs:561-610 `update_with_fmadd_fma` (`L = 2`), 500-549 `update_with_fmadd_avx512` (`L = 4`). -/
def fmaddSimd (L : Nat) (out : Option (List C64)) (lhs rhs : List C64) : List C64 :=
  match out with
  | none => storeBlocks L lhs.length (fun i => mulBlock (floats (loadu L lhs i)) (floats (loadu L rhs i))) []
  | some out => storeBlocks L out.length
      (fun i => mulAddBlock (floats (loadu L out i)) (floats (loadu L lhs i)) (floats (loadu L rhs i))) out

/-- ggsw.rs:648-681 `update_with_fmadd` on one polynomial. -/
def updateWithFmadd (c : Cpu) (out : Option (List C64)) (lhs rhs : List C64) : List C64 :=
  match fmaddIsa c with
  | .scalar => fmaddScalar out lhs rhs
  | .fma => fmaddSimd 2 out lhs rhs
  | .avx512 => fmaddSimd 4 out lhs rhs

/-- The Fourier transform as the transform of the external product: `none` is the uninitialised buffer, which is
not added to the output (ggsw.rs:455). -/
def fftTransform (w : Nat) (c : Cpu) (plan : Plan) (tw : List C64) : Pbs.Transform w where
  E := Option (List C64)
  zero := none
  fwdGgsw p := some (forwardAsTorus plan tw p)
  fwdDigit p := some (forwardAsInteger c plan tw p)
  mulAcc acc a d := some (updateWithFmadd c acc (a.getD []) (d.getD []))
  addBack out e :=
    match e with
    | none => out
    | some fourier => addBackwardAsTorus c plan tw out fourier

end Verif.Fft
