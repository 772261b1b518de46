import Verif.Lwe.Model
import Verif.Entity.Model
import Verif.Pbs.Model
import Verif.Wop.Model
/-
The C functions of /repo/concrete-cpu/src on raw memory (C68).

The memory of 64-bit words is a list, a pointer is an index in it. The complex numbers of the Fourier domain live in a
memory of their own. Products of dimensions are not reduced modulo `2^64`: a range of more words than the address space is
not valid anyway. `pulp::Arch::dispatch` only chooses the instructions. `parallelism` is unused by the code.
-/
namespace Verif.Capi

open Verif Verif.Entity
open Verif.Csprng (Build)

/-- How a C function ends: it returns, it panics (which aborts, or unwinds across `extern "C"`), or it has made a slice of
a range that is not valid, or that overlaps a mutable one. -/
inductive Call (α : Type) where
  | done (a : α)
  | abort
  | undef
  deriving DecidableEq, Repr

/-- Sequence of calls. -/
def Call.bind {α β : Type} : Call α → (α → Call β) → Call β
  | .done a, f => f a
  | .abort, _ => .abort
  | .undef, _ => .undef

instance : Monad Call where
  pure := .done
  bind := Call.bind

/-- A panic of the library. -/
def orAbort {α : Type} : Option α → Call α
  | some a => .done a
  | none => .abort

/-- `assert!`, `assert_eq!`, `assert_ne!`. -/
def assert (p : Prop) [Decidable p] : Call Unit := if p then .done () else .abort

/-- `slice::from_raw_parts(p, n)`. -/
def slice {α : Type} (m : List α) (p n : Nat) : Call (List α) :=
  if p + n ≤ m.length then .done ((m.drop p).take n) else .undef

/-- The rule of `slice::from_raw_parts_mut`: the mutable range `[p, p + n[` does not overlap `[q, q + k[`. -/
def noAlias (p n q k : Nat) : Call Unit := if p + n ≤ q ∨ q + k ≤ p then .done () else .undef

/-- The memory after the words of a mutable slice at `p` have become `r`. -/
def store {α : Type} (m : List α) (p : Nat) (r : List α) : List α := m.take p ++ r ++ m.drop (p + r.length)

/-! ### linear_op.rs -/

/-- linear_op.rs:10-31 `concrete_cpu_add_lwe_ciphertext_u64`. -/
def addLwe (m : List (BitVec 64)) (ctOut ctIn0 ctIn1 lweDimension : Nat) : Call (List (BitVec 64)) := do
  let size := lweDimension + 1
  noAlias ctOut size ctIn0 size
  noAlias ctOut size ctIn1 size
  let out ← slice m ctOut size
  let in0 ← slice m ctIn0 size
  let in1 ← slice m ctIn1 size
  pure (store m ctOut (zipUpdate (fun _ c => c.1 + c.2) out (in0.zip in1)))

/-- linear_op.rs:38-59 `concrete_cpu_add_plaintext_lwe_ciphertext_u64`. -/
def addPlaintextLwe (m : List (BitVec 64)) (ctOut ctIn : Nat) (plaintext : BitVec 64) (lweDimension : Nat) :
    Call (List (BitVec 64)) := do
  let size := lweDimension + 1
  noAlias ctOut size ctIn size
  let out ← slice m ctOut size
  let inp ← slice m ctIn size
  pure (store m ctOut (zipUpdate (fun _ c => c + plaintext) out inp))

/-- linear_op.rs:66-87 `concrete_cpu_mul_cleartext_lwe_ciphertext_u64`. -/
def mulCleartextLwe (m : List (BitVec 64)) (ctOut ctIn : Nat) (cleartext : BitVec 64) (lweDimension : Nat) :
    Call (List (BitVec 64)) := do
  let size := lweDimension + 1
  noAlias ctOut size ctIn size
  let out ← slice m ctOut size
  let inp ← slice m ctIn size
  pure (store m ctOut (zipUpdate (fun _ c => c * cleartext) out inp))

/-- linear_op.rs:94-114 `concrete_cpu_negate_lwe_ciphertext_u64`. -/
def negateLwe (m : List (BitVec 64)) (ctOut ctIn lweDimension : Nat) : Call (List (BitVec 64)) := do
  let size := lweDimension + 1
  noAlias ctOut size ctIn size
  let out ← slice m ctOut size
  let inp ← slice m ctIn size
  pure (store m ctOut (zipUpdate (fun _ c => -c) out inp))

/-! ### keyswitch.rs -/

/-- keyswitch.rs:31-67 `concrete_cpu_keyswitch_lwe_ciphertext_u64`. The debug checks of `keyswitch_ciphertext` compare the
dimensions of the key, computed from its length, with those of the ciphertexts. -/
def keyswitchLwe (bld : Build) (m : List (BitVec 64)) (ctOut ctIn keyswitchKey level baseLog inDim outDim : Nat) :
    Call (List (BitVec 64)) := do
  noAlias ctOut (outDim + 1) ctIn (inDim + 1)
  noAlias ctOut (outDim + 1) keyswitchKey (level * (outDim + 1) * inDim)
  let out ← slice m ctOut (outDim + 1)
  let inp ← slice m ctIn (inDim + 1)
  let cont ← slice m keyswitchKey (level * (outDim + 1) * inDim)
  let key ← orAbort (KeyswitchKey.fromContainer bld cont baseLog level outDim)
  if bld = .debug then
    let d ← orAbort (key.inputDimension bld)
    assert (d = inp.length - 1)
    let d' ← orAbort (key.outputDimension bld)
    assert (d' = out.length - 1)
  let r ← orAbort (Lwe.keyswitchCiphertext key.baseLog key.levelCount key.lweSize key.tensor out inp)
  pure (store m ctOut r)

/-! ### bootstrap/mod.rs -/

variable {C : Type}

/-- fft/private/crypto/bootstrap.rs:39-65 `FourierLweBootstrapKey::new`. -/
def fourierKeyNew (data : List C) (keySize polySize glweSize level : Nat) : Call Unit := do
  assert (polySize % 2 = 0)
  assert (data.length = keySize * polySize / 2 * level * glweSize * glweSize)

/-- bootstrap/mod.rs:45-95 `concrete_cpu_bootstrap_key_convert_u64_to_fourier`; `fm` is the memory of the Fourier domain,
`T.fwdGgsw` the transform and `toWords` the complex numbers of a transformed polynomial. -/
def convertBsk (bld : Build) (T : Pbs.Transform 64) (toWords : T.E → List C) (m : List (BitVec 64)) (fm : List C)
    (standardBsk fourierBsk level baseLog glweDim polySize inDim : Nat) : Call (List C) := do
  let g := glweDim + 1
  let standardLen := inDim * level * g * g * polySize
  let fourierLen := standardLen / 2
  let std ← slice m standardBsk standardLen
  let key ← orAbort (BootstrapKey.fromContainer bld std g polySize level baseLog)
  let fou ← slice fm fourierBsk fourierLen
  fourierKeyNew fou inDim polySize g level
  pure (store fm fourierBsk ((Pbs.convert T polySize key.tensor).flatMap toWords))

/-- bootstrap/mod.rs:127-185 `concrete_cpu_bootstrap_lwe_ciphertext_u64`; `ofWords` reads a transformed polynomial from
its complex numbers. -/
def bootstrapLwe (T : Pbs.Transform 64) (ofWords : List C → T.E) (m : List (BitVec 64)) (fm : List C)
    (ctOut ctIn accumulator fourierBsk level baseLog glweDim polySize inDim : Nat) : Call (List (BitVec 64)) := do
  let outDim := glweDim * polySize
  let g := glweDim + 1
  let standardLen := inDim * level * g * g * polySize
  let fourierLen := standardLen / 2
  noAlias ctOut (outDim + 1) ctIn (inDim + 1)
  noAlias ctOut (outDim + 1) accumulator (polySize * g)
  let fou ← slice fm fourierBsk fourierLen
  fourierKeyNew fou inDim polySize g level
  let inp ← slice m ctIn (inDim + 1)
  let out ← slice m ctOut (outDim + 1)
  let acc ← slice m accumulator (polySize * g)
  let r ← orAbort (Pbs.bootstrap (Pbs.cmuxFft T polySize glweDim baseLog level) polySize polySize.log2 out inp acc
    (chunks (level * (g * g)) ((chunks (polySize / 2) fou).map ofWords)))
  pure (store m ctOut r)

/-! ### wop_pbs.rs -/

/-- wop_pbs.rs:65-153 `concrete_cpu_extract_bit_lwe_ciphertext_u64`. -/
def extractBit (bld : Build) (T : Pbs.Transform 64) (ofWords : List C → T.E) (m : List (BitVec 64)) (fm : List C)
    (ctVecOut ctIn fourierBsk ksk ctOutDim ctOutCount ctInDim numberOfBits deltaLog bskLevel bskBaseLog bskGlweDim
      bskPolySize bskInDim kskLevel kskBaseLog kskInDim kskOutDim : Nat) : Call (List (BitVec 64)) := do
  assert (ctInDim = bskGlweDim * bskPolySize)
  assert (ctInDim = kskInDim)
  assert (ctOutDim = kskOutDim)
  assert (ctOutCount = numberOfBits)
  assert (kskOutDim = bskInDim)
  assert (64 < numberOfBits + deltaLog)
  let g := bskGlweDim + 1
  noAlias ctVecOut ((ctOutDim + 1) * ctOutCount) ctIn (ctInDim + 1)
  noAlias ctVecOut ((ctOutDim + 1) * ctOutCount) ksk (kskLevel * (kskOutDim + 1) * kskInDim)
  let out ← slice m ctVecOut ((ctOutDim + 1) * ctOutCount)
  let inp ← slice m ctIn (ctInDim + 1)
  let cont ← slice m ksk (kskLevel * (kskOutDim + 1) * kskInDim)
  let key ← orAbort (KeyswitchKey.fromContainer bld cont kskBaseLog kskLevel kskOutDim)
  let fou ← slice fm fourierBsk (bskInDim * (bskPolySize / 2) * bskLevel * g * g)
  fourierKeyNew fou bskInDim bskPolySize g bskLevel
  let bsk := chunks (bskLevel * (g * g)) ((chunks (bskPolySize / 2) fou).map ofWords)
  let r ← orAbort (Wop.extractBits bld
    (fun o c => Lwe.keyswitchCiphertext key.baseLog key.levelCount key.lweSize key.tensor o c)
    (fun o c a => Pbs.bootstrap (Pbs.cmuxFft T bskPolySize bskGlweDim bskBaseLog bskLevel) bskPolySize bskPolySize.log2 o c a
      bsk) bskPolySize bskGlweDim deltaLog numberOfBits (ctOutDim + 1) out inp)
  pure (store m ctVecOut r)

/-- glwe/keyswitch.rs:1824-1852 `from_container` of the list of private functional packing keyswitch keys. The number of
keys is only compared with the length. -/
def packingKeyListFromContainer (bld : Build) {α : Type} (cont : List α) (baseLog level inDim outGlweDim outPolySize count : Nat) :
    Option (PackingKeyList α) := do
  ckDimDiv bld cont.length [[outGlweDim + 1, outPolySize], [level], [inDim + 1], [count]]
  some ⟨cont, baseLog, level, inDim + 1, outGlweDim + 1, outPolySize⟩

/-- wop_pbs.rs:307-322: the number of words of the packing keyswitch keys that are read. -/
def fpkskLen (level outGlweDim outPolySize inDim count : Nat) : Nat :=
  level * outGlweDim * outPolySize * (inDim + 1) * count

/-- wop_pbs.rs:307-322 and glwe/keyswitch.rs:1929-1953: the keys that the circuit bootstrap iterates over. -/
def fpkskKeys (bld : Build) {α : Type} (cont : List α) (baseLog level inDim outGlweDim outPolySize count : Nat) :
    Call (List (List α)) := do
  let list ← orAbort (packingKeyListFromContainer bld cont baseLog level inDim outGlweDim outPolySize count)
  let keys ← orAbort (list.keyIter bld)
  pure (keys.map PackingKey.tensor)

/-- wop_pbs.rs:217-335 `concrete_cpu_circuit_bootstrap_boolean_vertical_packing_lwe_ciphertext_u64`. `pbs bsk` is the
bootstrap with the words of the Fourier key, `ks` the private functional keyswitch, `conv` the transform of a GGSW, `vp`
the vertical packing. -/
def verticalPacking {G : Type} (bld : Build)
    (pbs : List C → List (BitVec 64) → List (BitVec 64) → List (BitVec 64) → Option (List (BitVec 64)))
    (ks : List (BitVec 64) → List (BitVec 64) → List (BitVec 64) → Option (List (BitVec 64)))
    (conv : List (BitVec 64) → G)
    (vp : List (List (BitVec 64)) → List (BitVec 64) → List G → Option (List (BitVec 64)))
    (m : List (BitVec 64)) (fm : List C)
    (ctOutVec ctInVec lut fourierBsk fpksk ctOutDim ctOutCount ctInDim ctInCount smallLutCount smallLutSize bskLevel
      bskGlweDim bskPolySize bskInDim fpkskLevel fpkskBaseLog fpkskInDim fpkskGlweDim fpkskPolySize fpkskCount
      cbsLevel cbsBaseLog : Nat) : Call (List (BitVec 64)) := do
  let bskOutDim := bskGlweDim * bskPolySize
  assert (bskOutDim = fpkskInDim)
  assert (ctInDim = bskInDim)
  assert (ctOutDim = fpkskGlweDim * fpkskPolySize)
  assert (smallLutSize = fpkskPolySize)
  assert (smallLutSize ≥ fpkskPolySize)
  assert (cbsBaseLog ≠ 0)
  assert (cbsLevel ≠ 0)
  assert (cbsLevel * cbsBaseLog ≤ 64)
  let g := bskGlweDim + 1
  noAlias ctOutVec (ctOutCount * (ctOutDim + 1)) ctInVec (ctInCount * (ctInDim + 1))
  noAlias ctOutVec (ctOutCount * (ctOutDim + 1)) lut (smallLutSize * smallLutCount)
  noAlias ctOutVec (ctOutCount * (ctOutDim + 1)) fpksk (fpkskLen fpkskLevel fpkskGlweDim fpkskPolySize fpkskInDim fpkskCount)
  let bigLut ← slice m lut (smallLutSize * smallLutCount)
  let fou ← slice fm fourierBsk (bskInDim * (bskPolySize / 2) * bskLevel * g * g)
  fourierKeyNew fou bskInDim bskPolySize g bskLevel
  let out ← slice m ctOutVec (ctOutCount * (ctOutDim + 1))
  let inp ← slice m ctInVec (ctInCount * (ctInDim + 1))
  let cont ← slice m fpksk (fpkskLen fpkskLevel fpkskGlweDim fpkskPolySize fpkskInDim fpkskCount)
  let keys ← fpkskKeys bld cont fpkskBaseLog fpkskLevel fpkskInDim fpkskGlweDim fpkskPolySize fpkskCount
  let r ← orAbort (Wop.cbsVerticalPacking bld
    (fun buf c => Wop.circuitBootstrap bld (pbs fou) ks bskPolySize bskGlweDim fpkskPolySize fpkskGlweDim cbsBaseLog cbsLevel
      63 buf keys c) conv vp fpkskPolySize (cbsLevel * (fpkskGlweDim + 1) * (fpkskGlweDim + 1) * fpkskPolySize) bskOutDim
    (ctOutDim + 1) (ctInDim + 1) bigLut out inp)
  pure (store m ctOutVec r)

end Verif.Capi
