import Verif.Wop.Model
import Verif.Pbs.Calls
/-
Model of the two calls of the Fourier engine for messages without padding: bit extraction, and circuit bootstrap followed
by vertical packing.

Source: /repo/concrete-core/src/backends/fft/implementation/engines/fft_engine (`fft_engine/`). The implementations for
32 and 64 bits, and those for views, are textually identical. `T` is the transform of the polynomial size of the bootstrap
key. Scratch memory is not modelled.
-/
namespace Verif.Wop
open Verif.Engine Verif.Entity Verif.Pbs
open Verif.Csprng (Build)
variable {w : Nat} (T : Transform w)

/-- The bootstrap with the key `bsk`, of GLWE dimension `k` (fft/bootstrap.rs, see `Pbs.bootstrap`). -/
def bootstrapWith (bsk : FourierBsk T) (k : Nat) (out inp acc : List (BitVec w)) : Option (List (BitVec w)) :=
  bootstrap (cmuxFft T bsk.polySize k bsk.baseLog bsk.level) bsk.polySize (Nat.log2 bsk.polySize) out inp acc
    (chunks (bsk.level * (bsk.glweSize * bsk.glweSize)) bsk.polys)

/-- fft_engine/lwe_ciphertext_discarding_bit_extraction.rs:103-167, 252-316, 412-476, 572-636
`discard_extract_bits_lwe_ciphertext`. -/
def extractBitsCall (m : Build) (out : LweList (BitVec w)) (inp : List (BitVec w)) (bsk : FourierBsk T)
    (ksk : KeyswitchKey (BitVec w)) (bits delta : Nat) : Res FErr (LweList (BitVec w)) :=
  fftThen bsk.polySize
    (match out.maskSize m, out.count m, lweCiphertextDimension m inp, bsk.dims T m, ksk.dims m with
    | some o, some c, some i, some d, some dk =>
      afterChecks (Checks.lweCiphertextDiscardingBitExtraction m ⟨o, c⟩ ⟨i⟩ d dk bits w delta)
        ((extractBits m (fun o c => Lwe.keyswitchCiphertext ksk.baseLog ksk.levelCount ksk.lweSize ksk.tensor o c)
          (bootstrapWith T bsk d.glweDim) bsk.polySize d.glweDim delta bits out.lweSize out.tensor inp).map
            fun t => { out with tensor := t })
    | _, _, _, _, _ => .panic)

/-- entities/lwe_circuit_bootstrap_private_functional_packing_keyswitch_keys.rs:23-45 (and 70-92): the dimensions of the
keys of a circuit bootstrap. Their number is not read by the call below, and left out. -/
def keyListDims (m : Build) (x : PackingKeyList (BitVec w)) : Option M.Pfpksk := do
  let n ← subU m x.inputSize 1
  let k ← subU m x.glweSize 1
  some ⟨n, k, x.polySize, 0⟩

/-- fft_engine/lwe_ciphertext_vector_discarding_circuit_bootstrap_boolean_vertical_packing.rs:198-278, 445-525
`discard_circuit_bootstrap_boolean_vertical_packing_lwe_ciphertext_vector`. The tables are cut in polynomials of the size
of the bootstrap key. The transform of the bootstrap key is also used on the GGSW ciphertexts, of the polynomial size of
`keys`: what happens when the sizes differ, which no check excludes, is not modelled. -/
def verticalPackingCall (m : Build) (out inp : LweList (BitVec w)) (bsk : FourierBsk T) (luts : List (BitVec w))
    (level baseLog : Nat) (keys : PackingKeyList (BitVec w)) : Res FErr (LweList (BitVec w)) :=
  fftThen bsk.polySize
    (match inp.maskSize m, inp.count m, out.maskSize m, out.count m, bsk.dims T m, keyListDims m keys with
    | some i, some ci, some o, some co, some d, some dk =>
      afterChecks (Checks.verticalPacking m ⟨i, ci⟩ ⟨o, co⟩ d ⟨luts.length⟩ level baseLog dk w)
        ((cbsVerticalPacking m
          (fun buf c =>
            match keys.keyIter m with
            | none => none
            | some ks => circuitBootstrap m (bootstrapWith T bsk d.glweDim)
                (fun key o c => Pks.privateKeyswitchOne keys.baseLog keys.levelCount keys.polySize dk.outGlweDim key o c)
                bsk.polySize d.glweDim keys.polySize dk.outGlweDim baseLog level (w - 1) buf
                (ks.map PackingKey.tensor) c)
          (convert T keys.polySize)
          (fun luts o gs => verticalPacking m
            (fun g o c => externalProduct T keys.polySize dk.outGlweDim baseLog level o g c) keys.polySize dk.outGlweDim
            luts o gs)
          bsk.polySize (level * ((dk.outGlweDim + 1) * ((dk.outGlweDim + 1) * keys.polySize)))
          (d.glweDim * bsk.polySize) out.lweSize inp.lweSize luts out.tensor inp.tensor).map
            fun t => { out with tensor := t })
    | _, _, _, _, _, _ => .panic)

end Verif.Wop
