import Verif.Session.Decrypt
import Verif.Entity.Calls
/-
Model of the calls of the default engine that transform seeded keys into keys.

Source: /repo/concrete-core/src/backends/default/implementation/engines/default_engine (`default_engine/`). The 32
and 64 bit implementations are textually identical. A `Seeded` entity holds the seed and the bodies; the level count
and the base log that the Rust entity also holds are arguments here.
-/
namespace Verif.Session
open Verif.Random Verif.Engine
open Verif.Csprng (Build)
variable {w : Nat} (T : BitVec 128 → Nat → BitVec 8)

/-- default_engine/lwe_seeded_keyswitch_key_to_lwe_keyswitch_key_transformation.rs:68-99, 157-188,
lwe/seeded_keyswitch.rs:122-170: the input dimension is the number of bodies divided by the level count. -/
def transformKeyswitchKey (level baseLog : Nat) (s : Seeded w) : Res EErr (Entity.KeyswitchKey (BitVec w)) :=
  afterCheck (.ok ())
    ((Lwe.expandKeyswitchKey level (s.maskLen + 1)
      (List.replicate (s.bodies.length / level * (level * (s.maskLen + 1))) 0) s.bodies
      (newSrc T s.compressionSeed)).map fun r => ⟨r.1, baseLog, level, s.maskLen + 1⟩)

/-- default_engine/lwe_seeded_bootstrap_key_to_lwe_bootstrap_key_transformation.rs:59-90, 138-169; `bodyLen` is the
polynomial size and `maskLen` the GLWE dimension times the polynomial size; the input dimension is the number of
words divided by those of one seeded GGSW ciphertext. -/
def transformBootstrapKey (level baseLog : Nat) (s : Seeded w) : Res EErr (Entity.BootstrapKey (BitVec w)) :=
  let N := s.bodyLen
  let k := s.maskLen / s.bodyLen
  afterCheck (.ok ())
    ((Glwe.expandBsk N k level
      (List.replicate (s.bodies.length / (level * ((k + 1) * N)) * (level * ((k + 1) * ((k + 1) * N)))) 0) s.bodies
      (newSrc T s.compressionSeed)).map fun r => ⟨r.1, N, k + 1, level, baseLog⟩)

end Verif.Session
