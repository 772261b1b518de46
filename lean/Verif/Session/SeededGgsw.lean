import Verif.Session.Model
/-
Seeded GGSW ciphertexts made from, and expanded with, their compression seed alone.

Source: /repo/concrete-core/src/commons/crypto/secret/glwe.rs (`secret/`), ggsw/seeded_standard.rs and
glwe/seeded_ciphertext.rs. The functions on existing generators are those of Verif.Glwe.Model.
-/
namespace Verif.Session
open Verif.Random

variable {w : Nat}

/-- secret/glwe.rs:1288-1312 `encrypt_constant_seeded_ggsw`: `s` is the compression seed of the ciphertext, `out` its
content before the call; the generator is dropped at the end of the call. -/
def encryptGgswFromSeed (T : BitVec 128 → Nat → BitVec 8) (f : GaussianFn w) (key : List (BitVec w)) (N k b : Nat)
    (s : BitVec 128) (out : List (BitVec w)) (msg : BitVec w) (seeder : Src) : Option (List (BitVec w) × Src) :=
  match newEncGen T s seeder with
  | none => none
  | some (g, seeder) => (Glwe.encryptSeededGgsw f key N k b out msg g).map fun r => (r.1, seeder)

/-- secret/glwe.rs:1531-1555 `par_encrypt_constant_seeded_ggsw`, levels in the order `sched`, rows of level `j` in the
order `rowSched j`. -/
def parEncryptGgswFromSeed (T : BitVec 128 → Nat → BitVec 8) (f : GaussianFn w) (key : List (BitVec w)) (N k b : Nat)
    (sched : List Nat) (rowSched : Nat → List Nat) (s : BitVec 128) (out : List (BitVec w)) (msg : BitVec w)
    (seeder : Src) : Option (List (BitVec w) × Src) :=
  match newEncGen T s seeder with
  | none => none
  | some (g, seeder) =>
    (Glwe.parEncryptSeededGgsw f key N k b sched rowSched out msg g).map fun r => (r.1, seeder)

/-- ggsw/seeded_standard.rs:575-585 `expand_into`. -/
def expandGgswFromSeed (T : BitVec 128 → Nat → BitVec 8) (N k : Nat) (s : BitVec 128) (out bodies : List (BitVec w)) :
    Option (List (BitVec w)) :=
  (Glwe.expandGgsw N k out bodies (newSrc T s)).map (·.1)

/-- glwe/seeded_ciphertext.rs:356-366 `expand_into`. -/
def expandGlweFromSeed (T : BitVec 128 → Nat → BitVec 8) (N : Nat) (s : BitVec 128) (out body : List (BitVec w)) :
    Option (List (BitVec w)) :=
  (Glwe.expandGlwe N out body (newSrc T s)).map (·.1)

end Verif.Session
