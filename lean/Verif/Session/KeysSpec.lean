import Verif.Session.Keys
import Verif.Entity.CallsSpec
import Verif.Poly.Spec
import Verif.Pks.Spec
/-
Specification vocabulary for C106: what the evaluation keys are for, in terms of the calls of the engine and of
decryption.
-/
namespace Verif.Session
open Verif.Random Verif.Engine Verif.Poly Verif.Pks
open Verif.Csprng (Build)
variable {w : Nat}

/-- The keyswitch call with `ksk` turns every ciphertext under `s` into a ciphertext under `s'` that decrypts to the
same value up to the error of the rounding and of the key, whatever the output contained. -/
def SwitchesTo (bld : Build) (ksk : Entity.KeyswitchKey (BitVec w)) (s s' : List (BitVec w)) (E : Nat) : Prop :=
  ∀ (out inp : List (BitVec w)) (x : BitVec w), out.length = s'.length + 1 → inp.length = s.length + 1 →
    decryptLwe bld s inp = .ok x →
    ∃ (r : List (BitVec w)) (e : Int), Entity.discardKeyswitch bld out inp ksk = .ok r ∧
      decryptLwe bld s' r = .ok (x + (e : BitVec w)) ∧
      |e| ≤ s.length * 2 ^ (w - ksk.baseLog * ksk.levelCount - 1) +
        s.length * ksk.levelCount * 2 ^ (ksk.baseLog - 1) * E

/-- The packing keyswitch call with `ksk` turns every list of at most `N` ciphertexts under `s` into a GLWE ciphertext
under `key` that decrypts to their values in the first coefficients and zero in the others, up to an error. -/
def PacksTo (bld : Build) (ksk : Entity.PackingKey (BitVec w)) (s : List (BitVec w)) (key : GlweKey (BitVec w))
    (E : Int) : Prop :=
  ∀ (out : Entity.GlweCiphertext (BitVec w)) (inp : Entity.LweList (BitVec w)) (c : Nat) (xs : List (BitVec w)),
    out.Wf key.dim → out.polySize = key.polySize → inp.Wf s.length c → c ≤ key.polySize →
    decryptLweVec bld s ⟨inp.lweSize, inp.tensor⟩ = .ok xs →
    ∃ (r : Entity.GlweCiphertext (BitVec w)) (ys : List (BitVec w)) (e : Nat → Int),
      Entity.discardPackingKeyswitch bld out inp ksk = .ok r ∧ decryptGlwe key r = .ok ys ∧
      ys.length = key.polySize ∧
      ∀ t, t < key.polySize → ys.getD t 0 = xs.getD t 0 + ((e t : Int) : BitVec w) ∧
        |e t| ≤ (if t < c then s.length * 2 ^ (w - ksk.baseLog * ksk.levelCount - 1) else 0) +
          c * (s.length * (ksk.levelCount * (2 ^ (ksk.baseLog - 1) * E)))

/-- The private functional packing keyswitch call with `ksk` turns every list of at most `N` ciphertexts of
`x_0, x_1, …` under `s` into a GLWE ciphertext under `key` of `λ P (x_0 + x_1 X + …)`, up to an error, where the
coefficients of `λ P` are at most `A`. -/
def PacksPrivatelyTo (bld : Build) (ksk : Entity.PackingKey (BitVec w)) (s : List (BitVec w))
    (key : GlweKey (BitVec w)) (lam : BitVec w) (P : List (BitVec w)) (E A : Int) : Prop :=
  ∀ (out : Entity.GlweCiphertext (BitVec w)) (inp : Entity.LweList (BitVec w)) (c : Nat) (xs : List (BitVec w)),
    out.Wf key.dim → out.polySize = key.polySize → inp.Wf s.length c → c ≤ key.polySize →
    decryptLweVec bld s ⟨inp.lweSize, inp.tensor⟩ = .ok xs →
    ∃ (r : Entity.GlweCiphertext (BitVec w)) (ys : List (BitVec w)) (e : Rq (BitVec w) key.polySize),
      Entity.discardPrivatePackingKeyswitch bld out inp ksk = .ok r ∧ decryptGlwe key r = .ok ys ∧
      ys.length = key.polySize ∧
      Small key.polySize (c * ((s.length + 1) * 2 ^ (w - ksk.baseLog * ksk.levelCount - 1) * A +
        (s.length + 1) * (ksk.levelCount * (2 ^ (ksk.baseLog - 1) * E)))) e ∧
      toRq key.polySize ys = const key.polySize lam * toRq key.polySize P *
        (∑ t ∈ Finset.range c, Xq (BitVec w) key.polySize ^ t * const key.polySize (xs.getD t 0)) + e

/-- The generation calls of bootstrap keys: noise sampler, LWE key, GLWE key, base log and level count. -/
def EncCall.bootstrapKey : EncCall w → Option (GaussianFn w × List (BitVec w) × GlweKey (BitVec w) × Nat × Nat)
  | .bsk f s key b l | .parBsk f s key b l _ _ _ => some (f, s, key, b, l)
  | _ => none

/-- The generation calls of seeded bootstrap keys. -/
def SeededCall.bootstrapKey : SeededCall w → Option (GaussianFn w × List (BitVec w) × GlweKey (BitVec w) × Nat × Nat)
  | .bsk f s key b l | .parBsk f s key b l _ _ _ => some (f, s, key, b, l)
  | _ => none

/-- The generation calls of the keys of a circuit bootstrap. -/
def EncCall.circuitKeys : EncCall w → Option (GaussianFn w × List (BitVec w) × GlweKey (BitVec w) × Nat × Nat)
  | .cbs f s key b l | .parCbs f s key b l _ _ => some (f, s, key, b, l)
  | _ => none

/-- A parallel call runs each of its jobs exactly once, in any order. -/
def EncCall.Scheduled : EncCall w → Prop
  | .parBsk _ s key _ l sched levelSched rowSched =>
    sched.Perm (List.range s.length) ∧ (∀ i, (levelSched i).Perm (List.range l)) ∧
      ∀ i j, (rowSched i j).Perm (List.range (key.dim + 1))
  | .parCbs _ s key _ _ sched inner =>
    sched.Perm (List.range (key.dim + 1)) ∧ ∀ i, i < key.dim + 1 → (inner i).Perm (List.range (s.length + 1))
  | _ => True

/-- Likewise for the seeded calls. -/
def SeededCall.Scheduled : SeededCall w → Prop
  | .parBsk _ s key _ l sched levelSched rowSched =>
    sched.Perm (List.range s.length) ∧ (∀ i, (levelSched i).Perm (List.range l)) ∧
      ∀ i j, (rowSched i j).Perm (List.range (key.dim + 1))
  | _ => True

end Verif.Session
