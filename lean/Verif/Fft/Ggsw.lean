import Verif.Fft.Model
import Verif.Pbs.Calls
/-
GGSW ciphertexts brought back from the Fourier domain.

Source: /repo/concrete-core/src/backends/fft/private/crypto/ggsw.rs and
/repo/concrete-core/src/backends/fft/implementation/engines/fft_engine/ggsw_ciphertext_discarding_conversion.rs. The
other direction is `Pbs.convertGgsw` and `Pbs.discardConvertGgsw`.
-/
namespace Verif.Fft
open Verif.Engine Verif.Entity Verif.Pbs
open Verif.Csprng (Build)

variable {w : Nat}

/-- fft/private/crypto/ggsw.rs:295-320 `fill_with_backward_fourier`: `out` is the content of the standard ciphertext
before the call. The polynomials are zipped to the shorter of the two lists; `none` stands for an uninitialised
polynomial, which no conversion produces. The transform overwrites the whole polynomial (mod.rs:501-522). -/
def fillBackward (plan : Plan) (tw : List C64) (N : Nat) (out : List (BitVec w)) (polys : List (Option (List C64))) :
    List (BitVec w) :=
  (zipUpdate (fun _ f => backwardAsTorus w plan tw (f.getD [])) (chunks N out) polys).flatten

/-- ggsw_ciphertext_discarding_conversion.rs:210-238, 302-330 `discard_convert_ggsw_ciphertext`, from the Fourier
domain. -/
def discardConvertBack (m : Build) (c : Cpu) (plan : Plan) (tw : List C64) (out : Ggsw (BitVec w))
    (x : FourierGgsw (fftTransform w c plan tw)) : Res FErr (Ggsw (BitVec w)) :=
  fftThen x.polySize
    (match ggswDims m out, x.dims _ m with
    | some o, some d => afterChecks (Checks.ggswCiphertextDiscardingConversion o d)
        (some { out with tensor := fillBackward plan tw x.polySize out.tensor x.polys })
    | _, _ => .panic)

end Verif.Fft
