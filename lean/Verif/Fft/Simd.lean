import Verif.Float.Bits
/-
Model of the vectorised integer/float conversions of
/repo/concrete-core/src/backends/fft/private/math/fft/x86.rs, one lane at a time: every instruction they
use acts on the 64-bit lanes independently. Intel's semantics of the instructions is part of the trusted
base.
-/
namespace Verif.Fft
open Verif.Float

/-- `_mm256_srlv_epi64` on one lane: a logical shift by an unsigned count, zero from 64 on. -/
def srlv (x count : BitVec 64) : BitVec 64 := if count.toNat < 64 then x >>> count.toNat else 0#64

/-- `_mm256_blendv_epi8` on one lane, for a mask whose bytes are all equal (the masks of this file are `0`
or all ones): the second operand where the mask is set. -/
def blendv (a b mask : BitVec 64) : BitVec 64 := if mask.msb then b else a

/-- `_mm256_cmpeq_epi64` on one lane. -/
def cmpeq (a b : BitVec 64) : BitVec 64 := if a = b then BitVec.allOnes 64 else 0#64

/-- x86.rs:31-42, 53-59, 92-104, 115-121: the magnitude of an `f64` as an integer: its significand, with
the implicit bit, shifted to the top (11) and then down by `1086 - exponent`. -/
def magnitude (bits : BitVec 64) : BitVec 64 :=
  let mantissa := (bits &&& 0xFFFFFFFFFFFFF#64) ||| 0x10000000000000#64
  let biasedExp := (bits >>> 52) &&& 0x7FF#64
  srlv (mantissa <<< 11) (1086#64 - biasedExp)

/-- x86.rs:28-80 `mm256_cvtpd_epi64` on one lane, as a function of the bits of the float. -/
def cvtpdEpi64 (bits : BitVec 64) : BitVec 64 :=
  let biasedExp := (bits >>> 52) &&& 0x7FF#64
  let signMask := 0#64 - (bits >>> 63)
  let pos := magnitude bits
  let neg := 0#64 - pos
  let normal := blendv pos neg signMask
  blendv normal 0#64 (cmpeq biasedExp 0#64)

/-- x86.rs:90-142 `mm512_cvtpd_epi64` on one lane. The mask of line 107-108 is set where the sign bit is
*different* from one; `_mm512_mask_blend_epi64` takes its second operand where the mask is set. -/
def cvtpdEpi64Avx512 (bits : BitVec 64) : BitVec 64 :=
  let biasedExp := (bits >>> 52) &&& 0x7FF#64
  let signMask : Bool := bits >>> 63 != 1#64
  let pos := magnitude bits
  let neg := 0#64 - pos
  let normal := if signMask then neg else pos
  if biasedExp == 0#64 then 0#64 else normal

/-- `_mm256_srai_epi32::<16>` on one lane: both 32-bit halves are shifted arithmetically. -/
def srai32 (x : BitVec 64) : BitVec 64 :=
  ((x.extractLsb' 32 32).sshiftRight 16) ++ ((x.extractLsb' 0 32).sshiftRight 16)

/-- `_mm256_blend_epi16::<0x33>` on one lane: the two low 16-bit words come from the second operand. -/
def blend33 (a b : BitVec 64) : BitVec 64 := (a.extractLsb' 32 32) ++ (b.extractLsb' 0 32)

/-- `_mm256_blend_epi16::<0x88>` on one lane: the high 16-bit word comes from the second operand. -/
def blend88 (a b : BitVec 64) : BitVec 64 := (b.extractLsb' 48 16) ++ (a.extractLsb' 0 48)

/-- x86.rs:151-167 `mm256_cvtepi64_pd` on one lane. -/
def cvtepi64Pd (x : BitVec 64) : F64 :=
  let xHi := blend33 (srai32 x) 0#64
  let xHi := xHi + toBits (.fin 442721857769029238784)
  let xLo := blend88 x (toBits (.fin 4503599627370496))
  let f := (ofBits xHi).sub (.fin 442726361368656609280)
  f.add (ofBits xLo)

/-- `x as f64` for a signed integer, `_mm256_cvtepi32_pd`, and x86.rs:177-191 `mm512_cvtepi64_pd`, which
is that cast on each lane. -/
def ofSigned {w : Nat} (x : BitVec w) : F64 := ofRat x.toInt

/-- `_mm256_cvtpd_epi32`, `_mm512_cvtpd_epi32` on one lane: rounding to nearest, ties to even; the
"integer indefinite" value when the result does not fit. -/
def cvtpdEpi32 : F64 → BitVec 32
  | .fin q => if -2 ^ 31 ≤ rne q ∧ rne q < 2 ^ 31 then BitVec.ofInt 32 (rne q) else 0x80000000#32
  | _ => 0x80000000#32

example : cvtpdEpi64 (toBits (.fin (-5 / 2))) = -2#64 := by decide +kernel
example : cvtpdEpi64Avx512 (toBits (.fin (-5 / 2))) = 2#64 := by decide +kernel
example : cvtepi64Pd (-3#64) = .fin (-3) := by decide +kernel
example : cvtepi64Pd 0x7FFFFFFFFFFFFFFF#64 = .fin (2 ^ 63) := by decide +kernel

end Verif.Fft
