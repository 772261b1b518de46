import Verif.Lwe.Model
import Verif.Glwe.Model
import Verif.Random.Fork
import Verif.Util.Par
/-
Model of the GSW ciphertexts: commons/crypto/secret/lwe.rs:778-1013, commons/crypto/gsw/ciphertext.rs.

A GSW ciphertext is its flat container: one matrix of `n + 1` rows of `n + 1` words per level, levels in
increasing order (gsw/ciphertext.rs:247-265, gsw/levels.rs:96-103). Paths are relative to
concrete-core/src.
-/
namespace Verif.Gsw
open Verif.Random Verif.Lwe Verif.Glwe

variable {w : Nat}

/-- secret/lwe.rs:803-806 (903-906, 993-996): `encoded.0 * (ONE << (BITS - base_log * level))`. The
product is the checked `*`: with overflow checks it panics when it does not fit. Modelled for
`1 ≤ base_log * level ≤ BITS`. -/
def gswFactor (bld : Csprng.Build) (b lev : Nat) (msg : BitVec w) : Option (BitVec w) :=
  match bld with
  | .debug => if msg.toNat * (gadget w b lev).toNat < 2 ^ w then some (msg * gadget w b lev) else none
  | .release => some (msg * gadget w b lev)

/-- secret/lwe.rs:823-831 (and 924-932, 1001-1010): `get_mut(index).unwrap()` and the wrapping addition
on the diagonal. -/
def addDiagonal (d : BitVec w) (r : Nat) (row : List (BitVec w)) : Option (List (BitVec w)) :=
  if r < row.length then some (row.modify r (fun x => x + d)) else none

/-- secret/lwe.rs:812-831 (912-932): the job of row `r` of a level. Rows beyond the generators are left
alone (`zip`). -/
def gswRowJob (f : GaussianFn w) (key : List (BitVec w)) (d : BitVec w) (gens : List EncGen) (r : Nat)
    (row : List (BitVec w)) : Option (List (BitVec w)) :=
  match gens[r]? with
  | none => some row
  | some g =>
    match encryptLwe f key row 0#w g with
    | none => none
    | some (ct, _) => addDiagonal d r ct

/-- secret/lwe.rs:802-831 (900-932): the job of the level matrix of index `j`, its rows in the order
`rowSched j`. -/
def gswLevelJob (bld : Csprng.Build) (f : GaussianFn w) (key : List (BitVec w)) (b : Nat) (msg : BitVec w)
    (gens : List EncGen) (rowSched : Nat → List Nat) (j : Nat) (matrix : List (BitVec w)) :
    Option (List (BitVec w)) :=
  match gens[j]? with
  | none => some matrix
  | some g =>
    match gswFactor bld b (j + 1) msg with
    | none => none
    | some d =>
      match g.forkGswLevelToLwe w (key.length + 1) with
      | (.error _, _) => none
      | (.ok rowGens, _) =>
        (parFor (gswRowJob f key d rowGens) (rowSched j) (chunks (key.length + 1) matrix)).map List.flatten

/-- secret/lwe.rs:875-933 `par_encrypt_constant_gsw`: levels in the order `sched`, rows of level `j` in
the order `rowSched j`. The number of levels is read from the container (gsw/ciphertext.rs:133-142). -/
def parEncryptGsw (bld : Csprng.Build) (f : GaussianFn w) (key : List (BitVec w)) (b : Nat)
    (sched : List Nat) (rowSched : Nat → List Nat) (out : List (BitVec w)) (msg : BitVec w) (g : EncGen) :
    Option (List (BitVec w) × EncGen) :=
  match g.forkGswToGswLevels w (out.length / ((key.length + 1) * (key.length + 1))) (key.length + 1) with
  | (.error _, _) => none
  | (.ok gens, g') =>
    match parFor (gswLevelJob bld f key b msg gens rowSched) sched
      (chunks ((key.length + 1) * (key.length + 1)) out) with
    | none => none
    | some ms => some (ms.flatten, g')

/-- secret/lwe.rs:778-832 `encrypt_constant_gsw`: everything in order. -/
def encryptGsw (bld : Csprng.Build) (f : GaussianFn w) (key : List (BitVec w)) (b : Nat)
    (out : List (BitVec w)) (msg : BitVec w) (g : EncGen) : Option (List (BitVec w) × EncGen) :=
  parEncryptGsw bld f key b (List.range (out.length / ((key.length + 1) * (key.length + 1))))
    (fun _ => List.range (key.length + 1)) out msg g

/-- secret/lwe.rs:988-992: every LWE of the ciphertext gets a zero mask and a noise as its body. -/
def trivialRows (f : GaussianFn w) : List (List (BitVec w)) → Src → Option (List (List (BitVec w)) × Src)
  | [], g => some ([], g)
  | row :: rows, g =>
    match randomNoise f g with
    | none => none
    | some (e, g') =>
      match trivialRows f rows g' with
      | none => none
      | some (rs, g'') => some ((List.replicate (row.length - 1) 0#w ++ [e]) :: rs, g'')

/-- secret/lwe.rs:993-1010: the loop over the rows of the level matrix of index `j`. -/
def trivialLevel (bld : Csprng.Build) (lweSize b : Nat) (msg : BitVec w) (j : Nat)
    (matrix : List (BitVec w)) : Option (List (BitVec w)) :=
  match gswFactor bld b (j + 1) msg with
  | none => none
  | some d => (parFor (addDiagonal d) (List.range lweSize) (chunks lweSize matrix)).map List.flatten

/-- secret/lwe.rs:973-1013 `trivial_encrypt_constant_gsw`. -/
def trivialEncryptGsw (bld : Csprng.Build) (f : GaussianFn w) (lweSize b : Nat) (out : List (BitVec w))
    (msg : BitVec w) (g : EncGen) : Option (List (BitVec w) × EncGen) :=
  match trivialRows f (chunks lweSize out) g.noise with
  | none => none
  | some (rows, gn) =>
    match parFor (trivialLevel bld lweSize b msg) (List.range (out.length / (lweSize * lweSize)))
      (chunks (lweSize * lweSize) rows.flatten) with
    | none => none
    | some ms => some (ms.flatten, { g with noise := gn })

/-- gsw/ciphertext.rs:463-473: one level of the external product, adding `digit * row` to the output
for each row. -/
def addRows (lweSize : Nat) (acc matrix : List (BitVec w)) (digits : List (BitVec w)) : List (BitVec w) :=
  ((chunks lweSize matrix).zip digits).foldl
    (fun acc q => zipUpdate (fun a c => a + c * q.2) acc q.1) acc

/-- gsw/ciphertext.rs:415-475 `external_product`: rounds the input, decomposes it and adds to `out` the
products with the rows, from the last level to the first. `lweSize` and `b` are stored in the ciphertext;
the level count is read from the container. -/
def externalProduct (b lweSize : Nat) (gsw out lwe : List (BitVec w)) : List (BitVec w) :=
  let l := gsw.length / (lweSize * lweSize)
  ((chunks (lweSize * lweSize) gsw).reverse.zip
    (Decomp.decomposeTensor b l (lwe.map (Decomp.closestRepresentable b l))).terms).foldl
      (fun acc p => addRows lweSize acc p.1 p.2.tensor) out

/-- gsw/ciphertext.rs:536-562 `cmux` (the previous content of the output is overwritten). -/
def cmux (b lweSize : Nat) (gsw ct0 ct1 : List (BitVec w)) : List (BitVec w) :=
  externalProduct b lweSize gsw ct0 (updateWithSub ct1 ct0)

end Verif.Gsw
