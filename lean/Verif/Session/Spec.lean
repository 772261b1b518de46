import Verif.Session.Model
/-
Specification used by the properties of histories: the masks and bytes of what an engine outputs.
-/
namespace Verif.Session
open Verif.Random Verif.Engine
variable {w : Nat}

/-- The bytes of a word, least significant first. -/
def leBytes (x : BitVec w) : List (BitVec 8) :=
  (List.range (w / 8)).map fun i => BitVec.ofNat 8 (x.toNat / 256 ^ i)

/-- The masks of a list of ciphertexts of `size` words that begin with a mask of `n` words, one after another. -/
def masks (n size : Nat) (d : List (BitVec w)) : List (BitVec w) := (chunks size d).flatMap (·.take n)

/-- The bytes of all the masks of an entity. -/
def Cts.maskBytes (c : Cts w) : List (BitVec 8) := (masks c.maskLen c.size c.data).flatMap leBytes

/-- The bytes `p, p+1, …, q-1` of a table. -/
def bytesBetween (t : Nat → BitVec 8) (p q : Nat) : List (BitVec 8) := (List.range (q - p)).map fun i => t (p + i)

/-- The first `m` words of a stream. -/
def streamWords (w : Nat) (g : Src) (m : Nat) : List (BitVec w) :=
  (List.range m).map fun i => wordAt w g.table (g.pos + i * (w / 8))

/-- A GLWE key made of whole polynomials. -/
def KeyOk (k : GlweKey (BitVec w)) : Prop := 0 < k.polySize ∧ k.polySize ∣ k.data.length

/-- The entities given to a call are made of whole ciphertexts and polynomials (C57 for the ones made by the
library), and a schedule runs each job exactly once. The relations between the dimensions of the arguments are
not assumed: they are checked by the call. -/
def EncCall.Fits : EncCall w → Prop
  | .lwe .. | .lweZero .. | .lweVec .. | .lweVecZero .. | .publicKey .. | .ksk .. => True
  | .lweInto _ _ out _ => out ≠ []
  | .lweVecInto _ _ out _ => 0 < out.lweSize ∧ out.lweSize ∣ out.data.length
  | .parLweVecZero _ _ count sched | .parPublicKey _ _ count sched => sched.Perm (List.range count)
  | .glwe _ key _ | .glweZero _ key | .glweVec _ key _ | .glweVecZero _ key _ | .ggsw _ key _ _ _
  | .bsk _ _ key _ _ | .pksk _ _ key _ _ | .pfpksk _ _ key _ _ _ _ | .cbs _ _ key _ _ => KeyOk key
  | .glweInto _ key out _ => KeyOk key ∧ 0 < out.polySize ∧ out.polySize ∣ out.tensor.length ∧ out.tensor ≠ []
  | .glweVecInto _ key out _ => KeyOk key ∧ 0 < out.polySize ∧ 0 < out.glweSize ∧
      out.glweSize * out.polySize ∣ out.tensor.length
  | .ggswInto _ key out _ => KeyOk key ∧ 0 < out.polySize ∧ 0 < out.glweSize ∧
      out.glweSize * out.glweSize * out.polySize ∣ out.tensor.length
  | .parBsk _ lweKey key _ level sched levelSched rowSched => KeyOk key ∧
      sched.Perm (List.range lweKey.length) ∧
      (∀ i, i < lweKey.length → (levelSched i).Perm (List.range level)) ∧
      ∀ i j, i < lweKey.length → j < level → (rowSched i j).Perm (List.range (key.dim + 1))
  | .parCbs _ inKey key _ _ sched inner => KeyOk key ∧ sched.Perm (List.range (key.dim + 1)) ∧
      ∀ i, i < key.dim + 1 → (inner i).Perm (List.range (inKey.length + 1))

/-- Calls with consistent arguments. -/
def Call.Fits : Call → Prop
  | .secret _ | .seeded _ => True
  | .enc c => c.Fits

/-- The bytes of the masks in the result of a call that draws from the encryption generator. -/
def Out.maskBytes : Out → List (BitVec 8)
  | .cts c => c.maskBytes
  | _ => []

/-- The compression seed of a seeded entity. -/
def Out.seed : Out → Option (BitVec 128)
  | .seeded s => some s.compressionSeed
  | _ => none

/-- The generators of the engine with other tables of bytes, at the same positions. -/
def Engine.withTables (e : Engine) (s m n d : Nat → BitVec 8) : Engine :=
  { secret := { e.secret with table := s }
    enc := { mask := { e.enc.mask with table := m }, noise := { e.enc.noise with table := n } }
    seeder := { e.seeder with table := d } }

/-- `e'` is `e` after its generators have advanced: same tables, same bounds. -/
structure Engine.Advances (e e' : Engine) : Prop where
  secret : e'.secret = { e.secret with pos := e'.secret.pos } ∧ e.secret.pos ≤ e'.secret.pos
  mask : e'.enc.mask = { e.enc.mask with pos := e'.enc.mask.pos } ∧ e.enc.mask.pos ≤ e'.enc.mask.pos
  noise : e'.enc.noise = { e.enc.noise with pos := e'.enc.noise.pos } ∧ e.enc.noise.pos ≤ e'.enc.noise.pos
  seeder : e'.seeder = { e.seeder with pos := e'.seeder.pos } ∧ e.seeder.pos ≤ e'.seeder.pos

/-- The given tables have the bytes of `e` at the positions that `e'` is past. -/
structure Engine.SameBytes (e e' : Engine) (s m n d : Nat → BitVec 8) : Prop where
  secret : ∀ p, e.secret.pos ≤ p → p < e'.secret.pos → s p = e.secret.table p
  mask : ∀ p, e.enc.mask.pos ≤ p → p < e'.enc.mask.pos → m p = e.enc.mask.table p
  noise : ∀ p, e.enc.noise.pos ≤ p → p < e'.enc.noise.pos → n p = e.enc.noise.table p
  seeder : ∀ p, e.seeder.pos ≤ p → p < e'.seeder.pos → d p = e.seeder.table p

/-- No generator is past its bound. -/
structure Engine.Ok (e : Engine) : Prop where
  secret : e.secret.pos ≤ e.secret.bound
  mask : e.enc.mask.pos ≤ e.enc.mask.bound
  noise : e.enc.noise.pos ≤ e.enc.noise.bound
  seeder : e.seeder.pos ≤ e.seeder.bound

end Verif.Session
