import Verif.Pbs.Model
import Verif.Entity.Calls
/-
Model of the calls of the Fourier engine: conversions to the Fourier domain, external product, CMUX and bootstrap.

Source: /repo/concrete-core/src/backends/fft/implementation/engines/fft_engine (`fft_engine/`) and
/repo/concrete-core/src/backends/fft/private/crypto (`fft/`). The 32 and 64 bit implementations are textually
identical. `T` is the transform of the polynomial size of the entities: the computations are reached only when the
sizes are equal. The products of the dimensions of entities in the Fourier domain are those of the entities they come
from, and are not checked again for overflow. Scratch memory is not modelled.
-/
namespace Verif.Pbs
open Verif.Engine Verif.Entity
open Verif.Csprng (Build)
variable {w : Nat}

/-- An error of a call of the engine: the one of the engine itself (fft_engine/mod.rs:11-13) or one of the generic
checks of the call. -/
inductive FErr where
  | unsupportedPolynomialSize
  | generic (e : EErr)
  deriving DecidableEq, Repr

/-- `usize::is_power_of_two`. -/
def isPow2 (n : Nat) : Bool := n != 0 && 2 ^ Nat.log2 n == n

/-- fft_engine/mod.rs:28-36 `perform_fft_checks`, then the rest of the call. -/
def fftThen {β : Type} (N : Nat) (r : Res EErr β) : Res FErr β :=
  if isPow2 N && decide (32 ≤ N) then
    match r with
    | .ok x => .ok x
    | .err e => .err (.generic e)
    | .panic => .panic
  else .err .unsupportedPolynomialSize

/-- fft/ggsw.rs:34-39 `FourierGgswCiphertext`. -/
structure FourierGgsw (T : Transform w) where
  polys : List T.E
  polySize : Nat
  glweSize : Nat
  baseLog : Nat
  level : Nat

/-- fft/bootstrap.rs:27-33 `FourierLweBootstrapKey`. -/
structure FourierBsk (T : Transform w) where
  polys : List T.E
  keySize : Nat
  polySize : Nat
  glweSize : Nat
  baseLog : Nat
  level : Nat

/-- entities/ggsw_ciphertext.rs: the dimensions of a GGSW ciphertext. -/
def ggswDims (m : Build) (x : Ggsw (BitVec w)) : Option M.Ggsw := do
  let k ← subU m x.glweSize 1
  let l ← x.levelCount m
  some ⟨k, x.polySize, l, x.baseLog⟩

variable (T : Transform w)

/-- fft/implementation/entities/ggsw_ciphertext.rs: the dimensions of a GGSW ciphertext in the Fourier domain. -/
def FourierGgsw.dims (m : Build) (x : FourierGgsw T) : Option M.Ggsw :=
  (subU m x.glweSize 1).map fun k => ⟨k, x.polySize, x.level, x.baseLog⟩

/-- fft/implementation/entities/lwe_bootstrap_key.rs: the dimensions of a bootstrap key in the Fourier domain. -/
def FourierBsk.dims (m : Build) (x : FourierBsk T) : Option M.Bsk :=
  (subU m x.glweSize 1).map fun k => ⟨x.keySize, k, x.polySize, x.level, x.baseLog⟩

/-- fft_engine/ggsw_ciphertext_conversion.rs:68-101, 151-184 `convert_ggsw_ciphertext`. -/
def convertGgsw (m : Build) (x : Ggsw (BitVec w)) : Res FErr (FourierGgsw T) :=
  fftThen x.polySize
    (match ggswDims m x with
    | some d => .ok ⟨convert T x.polySize x.tensor, d.polySize, d.glweDim + 1, d.baseLog, d.level⟩
    | none => .panic)

/-- fft_engine/ggsw_ciphertext_discarding_conversion.rs:82-109, 177-204 `discard_convert_ggsw_ciphertext`. -/
def discardConvertGgsw (m : Build) (out : FourierGgsw T) (x : Ggsw (BitVec w)) : Res FErr (FourierGgsw T) :=
  fftThen x.polySize
    (match out.dims T m, ggswDims m x with
    | some o, some d => afterChecks (Checks.ggswCiphertextDiscardingConversion o d)
        (some { out with polys := convert T x.polySize x.tensor })
    | _, _ => .panic)

/-- fft_engine/lwe_bootstrap_key_conversion.rs:60-106, 151-198 `convert_lwe_bootstrap_key`. -/
def convertBsk (m : Build) (x : BootstrapKey (BitVec w)) : Res FErr (FourierBsk T) :=
  fftThen x.polySize
    (match x.keySize m with
    | some n => .ok ⟨convert T x.polySize x.tensor, n, x.polySize, x.glweSize, x.baseLog, x.levelCount⟩
    | none => .panic)

/-- fft_engine/glwe_ciphertext_ggsw_ciphertext_discarding_external_product.rs:83-131, 201-249
`discard_compute_external_product_glwe_ciphertext_ggsw_ciphertext`. -/
def discardExternalProductCall (m : Build) (inp : GlweCiphertext (BitVec w)) (ggsw : FourierGgsw T)
    (out : GlweCiphertext (BitVec w)) : Res FErr (GlweCiphertext (BitVec w)) :=
  fftThen inp.polySize
    (match inp.maskSize m, ggsw.dims T m, out.maskSize m with
    | some k, some d, some k' =>
      afterChecks (Checks.glweCiphertextGgswCiphertextDiscardingExternalProduct ⟨k, inp.polySize⟩ d ⟨k', out.polySize⟩)
        (let t := discardExternalProduct T inp.polySize k ggsw.baseLog ggsw.level out.tensor ggsw.polys inp.tensor
        some { out with tensor := t })
    | _, _, _ => .panic)

/-- fft_engine/glwe_ciphertexts_ggsw_ciphertext_fusing_cmux.rs:84-129, 200-246
`fuse_cmux_glwe_ciphertexts_ggsw_ciphertext`: the new `glwe_output` and the new `glwe_input`. -/
def fuseCmux (m : Build) (out inp : GlweCiphertext (BitVec w)) (ggsw : FourierGgsw T) :
    Res FErr (GlweCiphertext (BitVec w) × GlweCiphertext (BitVec w)) :=
  fftThen out.polySize
    (match out.maskSize m, inp.maskSize m, ggsw.dims T m with
    | some k, some k', some d =>
      afterChecks (Checks.glweCiphertextsGgswCiphertextFusingCmux ⟨k, out.polySize⟩ ⟨k', inp.polySize⟩ d)
        (let r := cmux (fun o c => externalProduct T out.polySize k ggsw.baseLog ggsw.level o ggsw.polys c)
          out.tensor inp.tensor
        some ({ out with tensor := r.1 }, { inp with tensor := r.2 }))
    | _, _, _ => .panic)

/-- fft_engine/lwe_ciphertext_discarding_bootstrap.rs:81-115, 181-215, 298-332, 415-449 `discard_bootstrap_lwe_ciphertext`. The modulus
switch is taken in the range where it does not panic (`log2 N + 2 < w`, see `switchDegree`). -/
def discardBootstrap (m : Build) (out inp : List (BitVec w)) (acc : GlweCiphertext (BitVec w)) (bsk : FourierBsk T) :
    Res FErr (List (BitVec w)) :=
  fftThen acc.polySize
    (match subU m out.length 1, subU m inp.length 1, acc.maskSize m, bsk.dims T m with
    | some o, some i, some k, some d =>
      afterChecks (Checks.lweCiphertextDiscardingBootstrap ⟨o⟩ ⟨i⟩ ⟨k, acc.polySize⟩ d)
        (bootstrap (cmuxFft T bsk.polySize d.glweDim bsk.baseLog bsk.level) bsk.polySize (Nat.log2 bsk.polySize) out inp
          acc.tensor (chunks (bsk.level * (bsk.glweSize * bsk.glweSize)) bsk.polys))
    | _, _, _, _ => .panic)

end Verif.Pbs
