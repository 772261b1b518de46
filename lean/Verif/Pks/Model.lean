import Verif.Glwe.Model
/-
Model of the packing keyswitch and of the private functional packing keyswitch.

Source: /repo/concrete-core/src/commons/crypto/glwe/keyswitch.rs.

A key is the flat list of its blocks, one per input key element, each made of `l` GLWE ciphertexts of
`(k + 1) * N` words, from level 1 on (keyswitch.rs:432-446, 1242-1256). `none` is a panic.
-/
namespace Verif.Pks
open Verif.Random

variable {w : Nat}

/-- keyswitch.rs:577-598 and 1412-1430: the body of the loop over the input elements. The element `a` is
rounded and decomposed, and the level ciphertexts of `blk`, last level first, times the digits are
subtracted from `acc`. `ctSize` is `output_glwe_size * output_polynomial_size`. -/
def subBlock (b l ctSize : Nat) (acc blk : List (BitVec w)) (a : BitVec w) : List (BitVec w) :=
  ((chunks ctSize blk).reverse.zip (Decomp.decompose b l (Decomp.closestRepresentable b l a)).terms).foldl
    (fun acc q => Lwe.subElementMul acc q.1 q.2.value) acc

/-- keyswitch.rs:552-599 `keyswitch_ciphertext` of the packing key. The reset output receives the input
body in the first coefficient of its body polynomial (`first_mut` panics on an empty body). -/
def packingKeyswitchOne (b l N k : Nat) (ksk after before : List (BitVec w)) : Option (List (BitVec w)) :=
  match before.getLast? with
  | none => none
  | some body =>
    if N = 0 then none
    else
      let init := (after.map fun _ => 0#w).set (after.length - N) body
      some (((chunks (l * ((k + 1) * N)) ksk).zip before.dropLast).foldl
        (fun acc p => subBlock b l ((k + 1) * N) acc p.1 p.2) init)

/-- keyswitch.rs:1393-1431 `private_functional_keyswitch_ciphertext`: every element of the input is
decomposed, the body included. -/
def privateKeyswitchOne (b l N k : Nat) (ksk after before : List (BitVec w)) : Option (List (BitVec w)) :=
  some (((chunks (l * ((k + 1) * N)) ksk).zip before).foldl
    (fun acc p => subBlock b l ((k + 1) * N) acc p.1 p.2) (after.map fun _ => 0#w))

/-- keyswitch.rs:618-629 and 1515-1526: the loop over the input ciphertexts, with the buffer. -/
def packLoop (ks : List (BitVec w) → List (BitVec w) → Option (List (BitVec w))) (N : Nat) :
    List (List (BitVec w)) → Nat → List (BitVec w) → List (BitVec w) → Option (List (BitVec w))
  | [], _, _, output => some output
  | c :: cs, degree, buffer, output =>
    match ks buffer c with
    | none => none
    | some r =>
      let buffer' := Poly.listMonomialMul N r degree
      packLoop ks N cs (degree + 1) buffer' (zipUpdate (fun a x => a + x) output buffer')

/-- keyswitch.rs:603-630 `packing_keyswitch`, on a flat list of ciphertexts of `lweSize` words. In debug
builds more than `N` ciphertexts panic (`debug_assert!`). -/
def packingKeyswitch (bld : Csprng.Build) (b l N k lweSize : Nat) (ksk output input : List (BitVec w)) :
    Option (List (BitVec w)) :=
  if bld = .debug ∧ N < (chunks lweSize input).length then none
  else packLoop (packingKeyswitchOne b l N k ksk) N (chunks lweSize input) 0
    (output.map fun _ => 0#w) (output.map fun _ => 0#w)

/-- keyswitch.rs:1500-1527 `private_functional_packing_keyswitch`. -/
def privatePackingKeyswitch (bld : Csprng.Build) (b l N k lweSize : Nat)
    (ksk output input : List (BitVec w)) : Option (List (BitVec w)) :=
  if bld = .debug ∧ N < (chunks lweSize input).length then none
  else packLoop (privateKeyswitchOne b l N k ksk) N (chunks lweSize input) 0
    (output.map fun _ => 0#w) (output.map fun _ => 0#w)

/-! ### Key generation -/

/-- keyswitch.rs:384-397: the plaintexts of one block, a constant polynomial per level. -/
def packingMessages (b l N : Nat) (bit : BitVec w) : List (BitVec w) :=
  ((List.range l).map fun j => (List.replicate N 0#w).set 0
    (Decomp.Term.toRecompositionSummand { level := j + 1, baseLog := b, value := bit })).flatten

/-- keyswitch.rs:379-406, the loop over the key elements. -/
def fillPackingKeyAux (f : GaussianFn w) (glweKey : List (BitVec w)) (b l N k : Nat) :
    List (BitVec w) → List (List (BitVec w)) → EncGen → Option (List (List (BitVec w)) × EncGen)
  | bit :: bits, blk :: blks, g =>
    match Glwe.encryptGlweList f glweKey N k blk (packingMessages b l N bit) g with
    | none => none
    | some (blk', g') =>
      match fillPackingKeyAux f glweKey b l N k bits blks g' with
      | none => none
      | some (blks', g'') => some (blk' :: blks', g'')
  | _, blks, g => some (blks, g)

/-- keyswitch.rs:353-407 `fill_with_packing_keyswitch_key`. -/
def fillPackingKey (f : GaussianFn w) (lweKey glweKey : List (BitVec w)) (b l N k : Nat)
    (ksk : List (BitVec w)) (g : EncGen) : Option (List (BitVec w) × EncGen) :=
  match fillPackingKeyAux f glweKey b l N k lweKey (chunks (l * ((k + 1) * N)) ksk) g with
  | none => none
  | some (blks, g') => some (blks.flatten, g')

/-- keyswitch.rs:1032-1053 (1181-1204): the plaintexts of one block of the private functional key: at
each level the polynomial times the level value of `f(1) · bit`. `fone` is `f(Scalar::ONE)`, the only
value of the function that is used. -/
def privateMessages (b l N : Nat) (fone : BitVec w) (polynomial : List (BitVec w)) (bit : BitVec w) :
    List (BitVec w) :=
  ((List.range l).map fun j => zipUpdate (fun a x => a + x *
    Decomp.Term.toRecompositionSummand { level := j + 1, baseLog := b, value := fone * bit })
      (List.replicate N 0#w) polynomial).flatten

/-- keyswitch.rs:1028-1062 (1180-1213): the job of block `i`; `bits` are the key elements followed by
`-1`. -/
def privateJob (f : GaussianFn w) (glweKey : List (BitVec w)) (b l N k : Nat) (fone : BitVec w)
    (polynomial bits : List (BitVec w)) (gens : List EncGen) (i : Nat) (blk : List (BitVec w)) :
    Option (List (BitVec w)) :=
  match bits[i]?, gens[i]? with
  | some bit, some g =>
    (Glwe.encryptGlweList f glweKey N k blk (privateMessages b l N fone polynomial bit) g).map (·.1)
  | _, _ => some blk

/-- keyswitch.rs:1121-1215 `par_fill_with_private_functional_packing_keyswitch_key`: the generator is
forked into one child per block and the jobs run in the order `sched`. -/
def parFillPrivateKey (f : GaussianFn w) (lweKey glweKey : List (BitVec w)) (b l N k : Nat)
    (fone : BitVec w) (polynomial : List (BitVec w)) (sched : List Nat) (ksk : List (BitVec w))
    (g : EncGen) : Option (List (BitVec w) × EncGen) :=
  match g.forkPfpkskToChunks w l (k + 1) N (lweKey.length + 1) with
  | (.error _, _) => none
  | (.ok gens, g') =>
    match parFor (privateJob f glweKey b l N k fone polynomial (lweKey ++ [BitVec.allOnes w]) gens) sched
      (chunks (l * ((k + 1) * N)) ksk) with
    | none => none
    | some blks => some (blks.flatten, g')

/-- keyswitch.rs:974-1063 `fill_with_private_functional_packing_keyswitch_key`: blocks in order. -/
def fillPrivateKey (f : GaussianFn w) (lweKey glweKey : List (BitVec w)) (b l N k : Nat)
    (fone : BitVec w) (polynomial ksk : List (BitVec w)) (g : EncGen) :
    Option (List (BitVec w) × EncGen) :=
  parFillPrivateKey f lweKey glweKey b l N k fone polynomial (List.range (lweKey.length + 1)) ksk g

end Verif.Pks
