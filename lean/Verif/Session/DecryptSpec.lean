import Verif.Session.Decrypt
/-
Specification vocabulary for C95: what the encryption calls of an engine are asked to encrypt, and which noise is
allowed.
-/
namespace Verif.Session
open Verif.Random Verif.Engine
variable {w : Nat}

/-- `x` is a value that the sampler of the noise distribution can return. -/
def Drawn (f : GaussianFn w) (x : BitVec w) : Prop := ∃ s s', randomNoise f s = some (x, s')

/-- `p` is a noise polynomial of `N` coefficients that the sampler can return. -/
def DrawnPoly (f : GaussianFn w) (N : Nat) (p : List (BitVec w)) : Prop :=
  p.length = N ∧ ∃ s s', randomNoiseTensor f N s = some (p, s')

/-- What the calls that encrypt LWE ciphertexts encrypt: noise sampler, key, messages. -/
def EncCall.lweMessages : EncCall w → Option (GaussianFn w × List (BitVec w) × List (BitVec w))
  | .lwe f key m | .lweInto f key _ m => some (f, key, [m])
  | .lweZero f key => some (f, key, [0])
  | .lweVec f key ms | .lweVecInto f key _ ms => some (f, key, ms)
  | .lweVecZero f key n | .parLweVecZero f key n _ | .publicKey f key n | .parPublicKey f key n _ =>
    some (f, key, List.replicate n 0)
  | _ => none

/-- What the calls that encrypt GLWE ciphertexts encrypt: noise sampler, key, messages, `polySize` for each
ciphertext. -/
def EncCall.glweMessages : EncCall w → Option (GaussianFn w × GlweKey (BitVec w) × List (BitVec w))
  | .glwe f key m | .glweInto f key _ m => some (f, key, m)
  | .glweZero f key => some (f, key, List.replicate key.polySize 0)
  | .glweVec f key ms | .glweVecInto f key _ ms => some (f, key, ms)
  | .glweVecZero f key n => some (f, key, List.replicate (n * key.polySize) 0)
  | _ => none

/-- The entities given to a call are such as the library builds: containers have the length their dimensions
say, dimensions are not zero, and a schedule runs every job once. -/
def EncCall.WellFormed : EncCall w → Prop
  | .lweInto _ _ out _ => out ≠ []
  | .lweVecInto _ _ out _ => 0 < out.lweSize ∧ out.lweSize ∣ out.data.length
  | .parLweVecZero _ _ n sched | .parPublicKey _ _ n sched => sched.Perm (List.range n)
  | .glwe _ key _ | .glweZero _ key | .glweVec _ key _ | .glweVecZero _ key _ =>
    0 < key.polySize ∧ key.polySize ∣ key.data.length
  | .glweInto _ key out _ => (0 < key.polySize ∧ key.polySize ∣ key.data.length) ∧
      out.polySize ∣ out.tensor.length ∧ out.tensor ≠ []
  | .glweVecInto _ key out _ => (0 < key.polySize ∧ key.polySize ∣ key.data.length) ∧
      0 < out.glweSize ∧ out.glweSize * out.polySize ∣ out.tensor.length
  | _ => True

/-- What the calls that make seeded LWE ciphertexts encrypt. -/
def SeededCall.lweMessages : SeededCall w → Option (GaussianFn w × List (BitVec w) × List (BitVec w))
  | .lwe f key m => some (f, key, [m])
  | .lweVec f key ms => some (f, key, ms)
  | _ => none

/-- What the calls that make seeded GLWE ciphertexts encrypt. -/
def SeededCall.glweMessages : SeededCall w → Option (GaussianFn w × GlweKey (BitVec w) × List (BitVec w))
  | .glwe f key m => some (f, key, m)
  | .glweVec f key ms => some (f, key, ms)
  | _ => none

end Verif.Session
