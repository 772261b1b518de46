import Verif.Util.Containers
import Verif.Util.Par
import Verif.Random.Model
import Verif.Decomp.Model
/-
Model of LWE ciphertexts: encryption, linear operations, seeded forms, keyswitch.

Source: /repo/concrete-core/src/commons/crypto/{lwe,secret}/*.rs and the default engine
(/repo/concrete-core/src/backends/default/implementation/engines/default_engine, abbreviated
`default_engine/`, with the checks of /repo/concrete-core/src/specification/engines, `spec/`).

A ciphertext is the flat list of its words, mask first and body last (lwe/ciphertext.rs:173-214).
Operations that only add, subtract and multiply words are modelled over an arbitrary commutative ring
`R`; wrapping arithmetic on `u32`/`u64` is the ring `BitVec w`. Lengths are compared by the code in
debug builds only (`ck_dim_eq!`); the model has the release behaviour (zip to the shorter length), and
the engine functions below check the dimensions first. A panic is `none` / `Res.panic`.
-/
namespace Verif.Lwe
open Verif.Random

section Ring
variable {R : Type} [CommRing R]

/-- lwe/ciphertext.rs:801-813 `compute_multisum` (tensor.rs:1242-1260 `fold_with_one`): in release
builds; see `multisumDebug` for the checked product. -/
def multisum (mask key : List R) : R := (mask.zip key).foldl (fun acc p => acc + p.1 * p.2) 0

/-- secret/lwe.rs:701-715 `decrypt_lwe`; `get_body_and_mask` panics on an empty ciphertext. -/
def decryptLwe (key ct : List R) : Option R :=
  match ct.getLast? with
  | none => none
  | some b => some (b - multisum ct.dropLast key)

/-- secret/lwe.rs:720-739 `decrypt_lwe_list` on a flat list of ciphertexts: the outputs beyond the
number of ciphertexts are left as they were. -/
def decryptLweListAux (key : List R) : List (List R) → List R → Option (List R)
  | ct :: cts, _ :: os =>
    match decryptLwe key ct, decryptLweListAux key cts os with
    | some x, some xs => some (x :: xs)
    | _, _ => none
  | _, os => some os

/-- secret/lwe.rs:720-739 `decrypt_lwe_list`. -/
def decryptLweList (key : List R) (lweSize : Nat) (out cts : List R) : Option (List R) :=
  decryptLweListAux key (chunks lweSize cts) out

/-- tensor.rs:771-779 `fill_with_copy`: `copy_from_slice` panics when the lengths differ. -/
def fillWithCopy (out inp : List R) : Option (List R) :=
  if out.length = inp.length then some inp else none

/-- lwe/ciphertext.rs:455-463 `update_with_add`. -/
def updateWithAdd (out other : List R) : List R := zipUpdate (fun a b => a + b) out other
/-- lwe/ciphertext.rs:510-518 `update_with_sub`. -/
def updateWithSub (out other : List R) : List R := zipUpdate (fun a b => a - b) out other
/-- lwe/ciphertext.rs:560-566 `update_with_neg`. -/
def updateWithNeg (out : List R) : List R := out.map (fun a => -a)
/-- lwe/ciphertext.rs:608-615 `update_with_scalar_mul`. -/
def updateWithScalarMul (out : List R) (s : R) : List R := out.map (fun a => a * s)
/-- lwe/ciphertext.rs:317-328 `fill_with_scalar_mul` (tensor.rs:867-879 `fill_with_one`). -/
def fillWithScalarMul (out inp : List R) (s : R) : List R := zipUpdate (fun _ i => i * s) out inp

/-- `*get_mut_body() = get_body() + x` (lwe/ciphertext.rs:193-269). -/
def addToBody (ct : List R) (x : R) : Option (List R) :=
  match ct.getLast? with
  | none => none
  | some b => some (ct.dropLast ++ [b + x])

/-- `get_mut_body().0 = get_body().0 - x`. -/
def subFromBody (ct : List R) (x : R) : Option (List R) :=
  match ct.getLast? with
  | none => none
  | some b => some (ct.dropLast ++ [b - x])

/-- lwe/ciphertext.rs:386-408 `fill_with_multisum_with_bias`: adds to the previous content. -/
def fillWithMultisumWithBias (out : List R) (inputs : List (List R)) (weights : List R) (bias : R) :
    Option (List R) :=
  addToBody ((inputs.zip weights).foldl
    (fun o p => zipUpdate (fun a c => a + c * p.2) o p.1) out) bias

/-- lwe/ciphertext.rs:683-698 `fill_with_trivial_encryption`. -/
def fillWithTrivialEncryption (out : List R) (m : R) : Option (List R) :=
  match out.getLast? with
  | none => none
  | some _ => some (List.replicate (out.length - 1) 0 ++ [m])

/-! ### Default engine entry points -/

/-- The error reported by the checks below. -/
inductive DimErr where
  | lweDimensionMismatch
  deriving DecidableEq, Repr

/-- `lwe_dimension()` of a ciphertext entity: `lwe_size - 1` (specification/parameters.rs:68). Entities
have at least one word. -/
def lweDim (ct : List R) : Nat := ct.length - 1

/-- Lift an unchecked operation. -/
def Res.ofOption {ε α : Type} : Option α → Res ε α
  | some a => .ok a
  | none => .panic

/-- spec/lwe_ciphertext_discarding_addition.rs:21-26;
default_engine/lwe_ciphertext_discarding_addition.rs:47-69. -/
def discardAdd (out a b : List R) : Res DimErr (List R) :=
  if lweDim out ≠ lweDim a ∨ lweDim out ≠ lweDim b then .err .lweDimensionMismatch
  else Res.ofOption ((fillWithCopy out a).map (fun o => updateWithAdd o b))

/-- spec/lwe_ciphertext_fusing_addition.rs:20;
default_engine/lwe_ciphertext_fusing_addition.rs:42-58. -/
def fuseAdd (out a : List R) : Res DimErr (List R) :=
  if lweDim out ≠ lweDim a then .err .lweDimensionMismatch else .ok (updateWithAdd out a)

/-- spec/lwe_ciphertext_discarding_subtraction.rs:21-26;
default_engine/lwe_ciphertext_discarding_subtraction.rs:44-66. -/
def discardSub (out a b : List R) : Res DimErr (List R) :=
  if lweDim out ≠ lweDim a ∨ lweDim out ≠ lweDim b then .err .lweDimensionMismatch
  else Res.ofOption ((fillWithCopy out a).map (fun o => updateWithSub o b))

/-- spec/lwe_ciphertext_fusing_subtraction.rs:20;
default_engine/lwe_ciphertext_fusing_subtraction.rs:42-58. -/
def fuseSub (out a : List R) : Res DimErr (List R) :=
  if lweDim out ≠ lweDim a then .err .lweDimensionMismatch else .ok (updateWithSub out a)

/-- spec/lwe_ciphertext_discarding_opposite.rs:20;
default_engine/lwe_ciphertext_discarding_opposite.rs:44-61. -/
def discardOpp (out a : List R) : Res DimErr (List R) :=
  if lweDim out ≠ lweDim a then .err .lweDimensionMismatch
  else Res.ofOption ((fillWithCopy out a).map updateWithNeg)

/-- default_engine/lwe_ciphertext_fusing_opposite.rs:39-49 (no check). -/
def fuseOpp (out : List R) : Res DimErr (List R) := .ok (updateWithNeg out)

/-- spec/lwe_ciphertext_cleartext_discarding_multiplication.rs:22;
default_engine/lwe_ciphertext_cleartext_discarding_multiplication.rs:53-73. -/
def discardMulCleartext (out a : List R) (s : R) : Res DimErr (List R) :=
  if lweDim out ≠ lweDim a then .err .lweDimensionMismatch else .ok (fillWithScalarMul out a s)

/-- default_engine/lwe_ciphertext_cleartext_fusing_multiplication.rs:46-61 (no check). -/
def fuseMulCleartext (out : List R) (s : R) : Res DimErr (List R) := .ok (updateWithScalarMul out s)

/-- spec/lwe_ciphertext_plaintext_discarding_addition.rs:20;
default_engine/lwe_ciphertext_plaintext_discarding_addition.rs:46-68. -/
def discardAddPlaintext (out a : List R) (p : R) : Res DimErr (List R) :=
  if lweDim out ≠ lweDim a then .err .lweDimensionMismatch
  else Res.ofOption ((fillWithCopy out a).bind (fun o => addToBody o p))

/-- default_engine/lwe_ciphertext_plaintext_fusing_addition.rs:43-58 (no check). -/
def fuseAddPlaintext (out : List R) (p : R) : Res DimErr (List R) := Res.ofOption (addToBody out p)

/-- spec/lwe_ciphertext_plaintext_discarding_subtraction.rs:20;
default_engine/lwe_ciphertext_plaintext_discarding_subtraction.rs:47-69. -/
def discardSubPlaintext (out a : List R) (p : R) : Res DimErr (List R) :=
  if lweDim out ≠ lweDim a then .err .lweDimensionMismatch
  else Res.ofOption ((fillWithCopy out a).bind (fun o => subFromBody o p))

/-- default_engine/lwe_ciphertext_plaintext_fusing_subtraction.rs:43-58 (no check). -/
def fuseSubPlaintext (out : List R) (p : R) : Res DimErr (List R) := Res.ofOption (subFromBody out p)

/-- The errors of the affine transformation,
spec/lwe_ciphertext_vector_discarding_affine_transformation.rs:7-11. -/
inductive AffineErr where
  | lweDimensionMismatch
  | cleartextCountMismatch
  deriving DecidableEq, Repr

/-- spec/lwe_ciphertext_vector_discarding_affine_transformation.rs:16-33;
default_engine/lwe_ciphertext_vector_discarding_affine_transformation.rs:140-168. The input vector is a
flat container of ciphertexts of `lweSize` words. -/
def discardAffine (out : List R) (lweSize : Nat) (inputs weights : List R) (bias : R) :
    Res AffineErr (List R) :=
  if lweDim out ≠ lweSize - 1 then .err .lweDimensionMismatch
  else if inputs.length / lweSize ≠ weights.length then .err .cleartextCountMismatch
  else Res.ofOption (fillWithMultisumWithBias out (chunks lweSize inputs) weights bias)

/-- lwe/list.rs:472-479, the loop of `fill_with_multisums_with_biases`. -/
def fillWithMultisumsAux (lweSize : Nat) :
    List (List R) → List (List R) → List (List R) → List R → Option (List (List R))
  | o :: os, i :: is, ws :: wss, b :: bs =>
    match fillWithMultisumWithBias o (chunks lweSize i) ws b, fillWithMultisumsAux lweSize os is wss bs with
    | some o', some os' => some (o' :: os')
    | _, _ => none
  | os, _, _, _ => some os

/-- lwe/list.rs:456-480 `fill_with_multisums_with_biases`. -/
def fillWithMultisumsWithBiases (lweSize : Nat) (out inputs weights biases : List R) :
    Option (List R) :=
  let count := (inputs.length / lweSize) / (out.length / lweSize)
  (fillWithMultisumsAux lweSize (chunks lweSize out) (chunks (count * lweSize) inputs)
    (chunks count weights) biases).map List.flatten

/-- default_engine/lwe_ciphertext_trivial_encryption.rs:44-51: a new ciphertext of the given size. -/
def trivialEncrypt (lweSize : Nat) (m : R) : Option (List R) :=
  fillWithTrivialEncryption (List.replicate lweSize 0) m

/-- default_engine/lwe_ciphertext_trivial_decryption.rs:41-46: returns the body. -/
def trivialDecrypt (ct : List R) : Option R := ct.getLast?

end Ring

section Words
variable {w : Nat}

/-- lwe/ciphertext.rs:811 in debug builds: the product `*s_i * *o_i` is checked (the sum wraps). -/
def multisumDebug (mask key : List (BitVec w)) : Option (BitVec w) :=
  (mask.zip key).foldl (fun acc p => match acc with
    | none => none
    | some a => if p.1.toNat * p.2.toNat < 2 ^ w then some (a + p.1 * p.2) else none) (some 0)

/-- secret/lwe.rs:307-333 `fill_lwe_mask_and_body_for_encryption`, for a mask of `n` words. The noise
sampler is `f`. -/
def fillMaskAndBody (f : GaussianFn w) (key : List (BitVec w)) (n : Nat) (msg : BitVec w) (g : EncGen) :
    Option (List (BitVec w) × BitVec w × EncGen) :=
  match rep n (uniform w) g.mask with
  | none => none
  | some (mask, gm) =>
    match randomNoise f g.noise with
    | none => none
    | some (e, gn) => some (mask, e + multisum mask key + msg, { mask := gm, noise := gn })

/-- secret/lwe.rs:372-393 `encrypt_lwe` into the ciphertext `out`. -/
def encryptLwe (f : GaussianFn w) (key out : List (BitVec w)) (msg : BitVec w) (g : EncGen) :
    Option (List (BitVec w) × EncGen) :=
  if out.length = 0 then none
  else match fillMaskAndBody f key (out.length - 1) msg g with
    | none => none
    | some (mask, body, g') => some (mask ++ [body], g')

/-- secret/lwe.rs:547-549, the loop of `encrypt_lwe_list` (zip to the shorter). -/
def encryptLweListAux (f : GaussianFn w) (key : List (BitVec w)) :
    List (List (BitVec w)) → List (BitVec w) → EncGen → Option (List (List (BitVec w)) × EncGen)
  | c :: cs, m :: ms, g =>
    match encryptLwe f key c m g with
    | none => none
    | some (ct, g') =>
      match encryptLweListAux f key cs ms g' with
      | none => none
      | some (cts, g'') => some (ct :: cts, g'')
  | cs, _, g => some (cs, g)

/-- secret/lwe.rs:530-550 `encrypt_lwe_list` on a flat list of ciphertexts of `lweSize` words. -/
def encryptLweList (f : GaussianFn w) (key : List (BitVec w)) (lweSize : Nat)
    (out msgs : List (BitVec w)) (g : EncGen) : Option (List (BitVec w) × EncGen) :=
  match encryptLweListAux f key (chunks lweSize out) msgs g with
  | none => none
  | some (cts, g') => some (cts.flatten, g')

/-- secret/lwe.rs:581-583, the job of worker `i`: encrypt message `i` into ciphertext `i` with
generator `i`. -/
def parEncryptJob (f : GaussianFn w) (key msgs : List (BitVec w)) (gens : List EncGen) (i : Nat)
    (c : List (BitVec w)) : Option (List (BitVec w)) :=
  match msgs[i]?, gens[i]? with
  | some m, some g => (encryptLwe f key c m g).map (·.1)
  | _, _ => some c

/-- secret/lwe.rs:553-584 `par_encrypt_lwe_list`: the generator is forked into one child per ciphertext
(`unwrap` panics on a fork error) and the jobs run in the order `sched`. -/
def parEncryptLweList (f : GaussianFn w) (key : List (BitVec w)) (lweSize : Nat)
    (out msgs : List (BitVec w)) (g : EncGen) (sched : List Nat) :
    Option (List (BitVec w) × EncGen) :=
  match g.forkLweListToLwe w (chunks lweSize out).length lweSize with
  | (.error _, _) => none
  | (.ok gens, g') =>
    match parFor (parEncryptJob f key msgs gens) sched (chunks lweSize out) with
    | none => none
    | some cts => some (cts.flatten, g')

/-! ### Seeded ciphertexts -/

/-- secret/lwe.rs:442-478 `encrypt_seeded_lwe`: only the body is kept. `g` is
`EncryptionRandomGenerator::new(compression_seed, seeder)`. -/
def encryptSeededLwe (f : GaussianFn w) (key : List (BitVec w)) (msg : BitVec w) (g : EncGen) :
    Option (BitVec w × EncGen) :=
  match fillMaskAndBody f key key.length msg g with
  | none => none
  | some (_, body, g') => some (body, g')

/-- secret/lwe.rs:586-621 `encrypt_seeded_lwe_list_with_existing_generator`: `n` bodies. -/
def encryptSeededLweList (f : GaussianFn w) (key : List (BitVec w)) :
    List (BitVec w) → List (BitVec w) → EncGen → Option (List (BitVec w) × EncGen)
  | _ :: bs, m :: ms, g =>
    match encryptSeededLwe f key m g with
    | none => none
    | some (b, g') =>
      match encryptSeededLweList f key bs ms g' with
      | none => none
      | some (bs', g'') => some (b :: bs', g'')
  | bs, _, g => some (bs, g)

/-- lwe/seeded_ciphertext.rs:165-178 `expand_into`; `g` is a generator started from the compression
seed. -/
def expandLwe (out : List (BitVec w)) (body : BitVec w) (g : Src) : Option (List (BitVec w) × Src) :=
  if out.length = 0 then none
  else match rep (out.length - 1) (uniform w) g with
    | none => none
    | some (mask, g') => some (mask ++ [body], g')

/-- lwe/seeded_list.rs:253-259. -/
def expandLweListAux : List (List (BitVec w)) → List (BitVec w) → Src →
    Option (List (List (BitVec w)) × Src)
  | c :: cs, b :: bs, g =>
    match expandLwe c b g with
    | none => none
    | some (ct, g') =>
      match expandLweListAux cs bs g' with
      | none => none
      | some (cts, g'') => some (ct :: cts, g'')
  | cs, _, g => some (cs, g)

/-- lwe/seeded_list.rs:243-291 `expand_into`. -/
def expandLweList (lweSize : Nat) (out bodies : List (BitVec w)) (g : Src) :
    Option (List (BitVec w) × Src) :=
  match expandLweListAux (chunks lweSize out) bodies g with
  | none => none
  | some (cts, g') => some (cts.flatten, g')

/-! ### Keyswitch -/

/-- lwe/keyswitch.rs:386-394: the messages of one block, levels `1..=l`. -/
def kskMessages (b l : Nat) (keyBit : BitVec w) : List (BitVec w) :=
  (List.range l).map fun j =>
    (Decomp.Term.toRecompositionSummand { level := j + 1, baseLog := b, value := keyBit })

/-- lwe/keyswitch.rs:375-403, the loop over the key bits. -/
def fillKeyswitchKeyAux (f : GaussianFn w) (afterKey : List (BitVec w)) (b l lweSize : Nat) :
    List (BitVec w) → List (List (BitVec w)) → EncGen → Option (List (List (BitVec w)) × EncGen)
  | bit :: bits, blk :: blks, g =>
    match encryptLweList f afterKey lweSize blk (kskMessages b l bit) g with
    | none => none
    | some (blk', g') =>
      match fillKeyswitchKeyAux f afterKey b l lweSize bits blks g' with
      | none => none
      | some (blks', g'') => some (blk' :: blks', g'')
  | _, blks, g => some (blks, g)

/-- lwe/keyswitch.rs:351-404 `fill_with_keyswitch_key`; `ksk` is the key container. -/
def fillKeyswitchKey (f : GaussianFn w) (beforeKey afterKey : List (BitVec w)) (b l lweSize : Nat)
    (ksk : List (BitVec w)) (g : EncGen) : Option (List (BitVec w) × EncGen) :=
  match fillKeyswitchKeyAux f afterKey b l lweSize beforeKey (chunks (l * lweSize) ksk) g with
  | none => none
  | some (blks, g') => some (blks.flatten, g')

/-- tensor.rs:1190-1201 `update_with_wrapping_sub_element_mul`. -/
def subElementMul {R : Type} [CommRing R] (out ct : List R) (d : R) : List R :=
  zipUpdate (fun a c => a - c * d) out ct

/-- lwe/keyswitch.rs:537-576 `keyswitch_ciphertext`; `lweSize` is the output LWE size stored in the
key. -/
def keyswitchCiphertext (b l lweSize : Nat) (ksk after before : List (BitVec w)) :
    Option (List (BitVec w)) :=
  match before.getLast? with
  | none => none
  | some body =>
    if after.length = 0 then none
    else
      let init := List.replicate (after.length - 1) 0#w ++ [body]
      some (((chunks (l * lweSize) ksk).zip before.dropLast).foldl (fun acc p =>
        ((chunks lweSize p.1).reverse.zip
            (Decomp.decompose b l (Decomp.closestRepresentable b l p.2)).terms).foldl
          (fun acc q => subElementMul acc q.1 q.2.value) acc) init)

/-- lwe/seeded_keyswitch.rs:316-344, the loop of the seeded key generation. -/
def fillSeededKeyswitchKeyAux (f : GaussianFn w) (afterKey : List (BitVec w)) (b l : Nat) :
    List (BitVec w) → List (List (BitVec w)) → EncGen → Option (List (List (BitVec w)) × EncGen)
  | bit :: bits, blk :: blks, g =>
    match encryptSeededLweList f afterKey blk (kskMessages b l bit) g with
    | none => none
    | some (blk', g') =>
      match fillSeededKeyswitchKeyAux f afterKey b l bits blks g' with
      | none => none
      | some (blks', g'') => some (blk' :: blks', g'')
  | _, blks, g => some (blks, g)

/-- lwe/seeded_keyswitch.rs:280-345 `fill_with_seeded_keyswitch_key`; `bodies` is the container. -/
def fillSeededKeyswitchKey (f : GaussianFn w) (beforeKey afterKey : List (BitVec w)) (b l : Nat)
    (bodies : List (BitVec w)) (g : EncGen) : Option (List (BitVec w) × EncGen) :=
  match fillSeededKeyswitchKeyAux f afterKey b l beforeKey (chunks l bodies) g with
  | none => none
  | some (blks, g') => some (blks.flatten, g')

/-- lwe/seeded_keyswitch.rs:465-475, the loop of the expansion. -/
def expandKeyswitchKeyAux (lweSize : Nat) : List (List (BitVec w)) → List (List (BitVec w)) → Src →
    Option (List (List (BitVec w)) × Src)
  | o :: os, blk :: blks, g =>
    match expandLweList lweSize o blk g with
    | none => none
    | some (o', g') =>
      match expandKeyswitchKeyAux lweSize os blks g' with
      | none => none
      | some (os', g'') => some (o' :: os', g'')
  | os, _, g => some (os, g)

/-- lwe/seeded_keyswitch.rs:456-476 `expand_into`. -/
def expandKeyswitchKey (l lweSize : Nat) (out bodies : List (BitVec w)) (g : Src) :
    Option (List (BitVec w) × Src) :=
  match expandKeyswitchKeyAux lweSize (chunks (l * lweSize) out) (chunks l bodies) g with
  | none => none
  | some (os, g') => some (os.flatten, g')

end Words

end Verif.Lwe
