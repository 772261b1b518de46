import Verif.Csprng.Model
import Verif.Csprng.Spec
import Verif.Util.BitVecRing
/-
Model of `RandomGenerator`, of the samplers and of the encryption generator.

Source: /repo/concrete-core/src/commons/math/random/*.rs and
/repo/concrete-core/src/commons/crypto/secret/generators/encryption.rs.

A byte generator is seen through its abstract state `Src`: the table of bytes it reads, its position
and its bound. `Verif.Random.Refine` proves that the concrete AES-CTR generator of `Verif.Csprng`
refines it (so nothing is assumed here). A panic is `none`.
-/
namespace Verif.Random

open Verif.Csprng (ForkError Build)

/-- Abstract state of a byte generator (generator.rs:78 `RandomGenerator<G>(G)`). -/
structure Src where
  table : Nat → BitVec 8
  pos : Nat
  bound : Nat

/-- A sampler: consumes bytes, may panic when the generator is exhausted. -/
abbrev Samp (A : Type) := Src → Option (A × Src)

/-- generator.rs:81-83 `generate_next`: `next_byte().unwrap()`. -/
def Src.next : Samp (BitVec 8) := fun g =>
  if g.pos < g.bound then some (g.table g.pos, { g with pos := g.pos + 1 }) else none

/-- Run a sampler `n` times (the loops filling tensors, random/mod.rs `fill_tensor`). -/
def rep {A : Type} : Nat → Samp A → Samp (List A)
  | 0, _, g => some ([], g)
  | n + 1, s, g =>
    match s g with
    | none => none
    | some (a, g') =>
      match rep n s g' with
      | none => none
      | some (as, g'') => some (a :: as, g'')

/-- `from_le_bytes` as a natural number. -/
def fromLE : List (BitVec 8) → Nat
  | [] => 0
  | b :: bs => b.toNat + 256 * fromLE bs

/-- uniform.rs:12-21 `generate_one` for `Uniform`: reads `size_of::<T>()` bytes, little endian. -/
def uniform (w : Nat) : Samp (BitVec w) := fun g =>
  match rep (w / 8) Src.next g with
  | none => none
  | some (bs, g') => some (BitVec.ofNat w (fromLE bs), g')

/-- uniform_binary.rs:11-20. -/
def uniformBinary (w : Nat) : Samp (BitVec w) := fun g =>
  match Src.next g with
  | none => none
  | some (b, g') => some (if b &&& 1#8 = 1#8 then 1#w else 0#w, g')

/-- uniform_ternary.rs:11-23: loops until the low two bits are not `3`. Every turn consumes a byte, so
the number of remaining bytes bounds the number of turns before the panic. -/
def uniformTernaryLoop (w : Nat) : Nat → Samp (BitVec w)
  | 0, _ => none
  | fuel + 1, g =>
    match Src.next g with
    | none => none
    | some (b, g') =>
      if b &&& 3#8 = 0#8 then some (0#w, g')
      else if b &&& 3#8 = 1#8 then some (1#w, g')
      else if b &&& 3#8 = 2#8 then some (0#w - 1#w, g')
      else uniformTernaryLoop w fuel g'

/-- uniform_ternary.rs:11-23. -/
def uniformTernary (w : Nat) : Samp (BitVec w) := fun g => uniformTernaryLoop w (g.bound - g.pos + 1) g

/-- The Rust shift amount `BITS - n` as evaluated by uniform_lsb.rs:18 and uniform_msb.rs:19: the
subtraction of `usize` values and the shift are checked in debug builds; in release builds the
subtraction wraps and the shift amount is reduced modulo `BITS`. -/
def shiftAmount (m : Build) (w n : Nat) : Option Nat :=
  match m with
  | .debug => if n ≤ w ∧ w - n < w then some (w - n) else none
  | .release => some ((2 ^ 64 + w - n) % 2 ^ 64 % w)

/-- uniform_lsb.rs:14-19. -/
def uniformLsb (m : Build) (w n : Nat) : Samp (BitVec w) := fun g =>
  match uniform w g, shiftAmount m w n with
  | some (x, g'), some k => some (x >>> k, g')
  | _, _ => none

/-- uniform_msb.rs:15-20. -/
def uniformMsb (m : Build) (w n : Nat) : Samp (BitVec w) := fun g =>
  match uniform w g, shiftAmount m w n with
  | some (x, g'), some k => some (x <<< k, g')
  | _, _ => none

/-- The floating point part of the gaussian sampler, kept abstract: whether the pair of 64-bit draws
is accepted (gaussian.rs:34-40) and the two torus values computed from an accepted pair
(gaussian.rs:41-42, 63-67). -/
structure GaussianFn (w : Nat) where
  accept : BitVec 64 → BitVec 64 → Bool
  value : BitVec 64 → BitVec 64 → BitVec w × BitVec w

/-- gaussian.rs:20-47: reads two 64-bit words until they are accepted. -/
def gaussianLoop {w : Nat} (f : GaussianFn w) : Nat → Samp (BitVec w × BitVec w)
  | 0, _ => none
  | fuel + 1, g =>
    match uniform 64 g with
    | none => none
    | some (u, g) =>
      match uniform 64 g with
      | none => none
      | some (v, g) => if f.accept u v then some (f.value u v, g) else gaussianLoop f fuel g

/-- gaussian.rs:59-68 (pair of torus values). -/
def gaussianPair {w : Nat} (f : GaussianFn w) : Samp (BitVec w × BitVec w) := fun g =>
  gaussianLoop f (g.bound - g.pos + 1) g

/-- encryption.rs:172-183 `random_noise`, gaussian.rs:75-81: only the first value is kept. -/
def randomNoise {w : Nat} (f : GaussianFn w) : Samp (BitVec w) := fun g =>
  match gaussianPair f g with
  | none => none
  | some (p, g') => some (p.1, g')

/-- generator.rs:586-609 `fill_tensor_with_random_gaussian`: pairs fill chunks of two; the second
value of the last pair is dropped for an odd length. -/
def randomNoiseTensor {w : Nat} (f : GaussianFn w) (n : Nat) : Samp (List (BitVec w)) := fun g =>
  match rep ((n + 1) / 2) (gaussianPair f) g with
  | none => none
  | some (ps, g') => some ((ps.flatMap fun p => [p.1, p.2]).take n, g')

/-! ### Forks -/

/-- generator.rs:129-137 `try_fork`, through aes_ctr/generic.rs:122-169: the children read consecutive
blocks, the parent skips them. -/
def Src.tryFork (g : Src) (n b : Nat) : Except ForkError (List Src × Src) :=
  if n = 0 then .error .zeroChildrenCount
  else if b = 0 then .error .zeroBytesPerChild
  else if g.pos + n * b ≤ g.bound then
    .ok ((List.range n).map (fun i =>
      { g with pos := g.pos + i * b, bound := g.pos + (i + 1) * b }),
      { g with pos := g.pos + n * b })
  else .error .forkTooLarge

/-- encryption.rs:18-23 `EncryptionRandomGenerator`. -/
structure EncGen where
  mask : Src
  noise : Src

/-- encryption.rs:144-158 `try_fork`: the state of `self` after the call is returned also on error.
The mask generator is forked first. -/
def EncGen.tryFork (g : EncGen) (n maskBytes noiseBytes : Nat) :
    Except ForkError (List EncGen) × EncGen :=
  match g.mask.tryFork n maskBytes with
  | .error e => (.error e, g)
  | .ok (ms, m) =>
    match g.noise.tryFork n noiseBytes with
    | .error e => (.error e, { g with mask := m })
    | .ok (ns, ν) =>
      (.ok ((ms.zip ns).map fun p => { mask := p.1, noise := p.2 }), { mask := m, noise := ν })

/-! ### Byte budgets, encryption.rs:315-417 (`w` is `T::BITS`) -/

/-- encryption.rs:315-317. -/
def maskBytesPerCoef (w : Nat) : Nat := w / 8
/-- encryption.rs:319-321. -/
def maskBytesPerPolynomial (w N : Nat) : Nat := N * maskBytesPerCoef w
/-- encryption.rs:323-328. -/
def maskBytesPerGlwe (w k N : Nat) : Nat := k * maskBytesPerPolynomial w N
/-- encryption.rs:330-335 (`glweSize - 1` is `to_glwe_dimension`). -/
def maskBytesPerGgswLevel (w glweSize N : Nat) : Nat :=
  glweSize * maskBytesPerGlwe w (glweSize - 1) N
/-- encryption.rs:337-339. -/
def maskBytesPerLwe (w n : Nat) : Nat := n * maskBytesPerCoef w
/-- encryption.rs:341-343. -/
def maskBytesPerGswLevel (w lweSize : Nat) : Nat := lweSize * maskBytesPerLwe w (lweSize - 1)
/-- encryption.rs:345-351. -/
def maskBytesPerGgsw (w level glweSize N : Nat) : Nat := level * maskBytesPerGgswLevel w glweSize N
/-- encryption.rs:353-359. -/
def maskBytesPerPfpkskChunk (w level glweSize N : Nat) : Nat :=
  level * maskBytesPerGlwe w (glweSize - 1) N
/-- encryption.rs:361-368. -/
def maskBytesPerPfpksk (w level glweSize N lweSize : Nat) : Nat :=
  lweSize * maskBytesPerPfpkskChunk w level glweSize N
/-- encryption.rs:370-374. -/
def noiseBytesPerCoef : Nat := 8 * 32
/-- encryption.rs:375-377. -/
def noiseBytesPerPolynomial (N : Nat) : Nat := N * noiseBytesPerCoef
/-- encryption.rs:379-381. -/
def noiseBytesPerGlwe (N : Nat) : Nat := noiseBytesPerPolynomial N
/-- encryption.rs:383-385. -/
def noiseBytesPerGgswLevel (glweSize N : Nat) : Nat := glweSize * noiseBytesPerGlwe N
/-- encryption.rs:387-390. -/
def noiseBytesPerLwe : Nat := noiseBytesPerCoef * 3
/-- encryption.rs:392-394. -/
def noiseBytesPerGswLevel (lweSize : Nat) : Nat := lweSize * noiseBytesPerLwe
/-- encryption.rs:396-402. -/
def noiseBytesPerGgsw (level glweSize N : Nat) : Nat := level * noiseBytesPerGgswLevel glweSize N
/-- encryption.rs:404-409. -/
def noiseBytesPerPfpkskChunk (level N : Nat) : Nat := level * noiseBytesPerGlwe N
/-- encryption.rs:411-417. -/
def noiseBytesPerPfpksk (level N lweSize : Nat) : Nat := lweSize * noiseBytesPerPfpkskChunk level N

/-- encryption.rs:47-59 (and 201-213, parallel). -/
def EncGen.forkBskToGgsw (g : EncGen) (w n level glweSize N : Nat) :=
  g.tryFork n (maskBytesPerGgsw w level glweSize N) (noiseBytesPerGgsw level glweSize N)
/-- encryption.rs:61-71 (215-225). -/
def EncGen.forkGgswToGgswLevels (g : EncGen) (w level glweSize N : Nat) :=
  g.tryFork level (maskBytesPerGgswLevel w glweSize N) (noiseBytesPerGgswLevel glweSize N)
/-- encryption.rs:73-82 (227-236). -/
def EncGen.forkGgswLevelToGlwe (g : EncGen) (w glweSize N : Nat) :=
  g.tryFork glweSize (maskBytesPerGlwe w (glweSize - 1) N) (noiseBytesPerGlwe N)
/-- encryption.rs:84-93 (238-247). -/
def EncGen.forkGswToGswLevels (g : EncGen) (w level lweSize : Nat) :=
  g.tryFork level (maskBytesPerGswLevel w lweSize) (noiseBytesPerGswLevel lweSize)
/-- encryption.rs:95-103 (249-257). -/
def EncGen.forkGswLevelToLwe (g : EncGen) (w lweSize : Nat) :=
  g.tryFork lweSize (maskBytesPerLwe w (lweSize - 1)) noiseBytesPerLwe
/-- encryption.rs:105-114 (259-268). -/
def EncGen.forkLweListToLwe (g : EncGen) (w count lweSize : Nat) :=
  g.tryFork count (maskBytesPerLwe w (lweSize - 1)) noiseBytesPerLwe
/-- encryption.rs:116-128 (270-282). -/
def EncGen.forkCbsPfpkskToPfpksk (g : EncGen) (w level glweSize N lweSize count : Nat) :=
  g.tryFork count (maskBytesPerPfpksk w level glweSize N lweSize)
    (noiseBytesPerPfpksk level N lweSize)
/-- encryption.rs:130-141 (284-295). -/
def EncGen.forkPfpkskToChunks (g : EncGen) (w level glweSize N lweSize : Nat) :=
  g.tryFork lweSize (maskBytesPerPfpkskChunk w level glweSize N) (noiseBytesPerPfpkskChunk level N)

end Verif.Random
