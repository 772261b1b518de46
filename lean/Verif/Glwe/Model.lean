import Verif.Poly.Model
import Verif.Lwe.Model
/-
Model of GLWE and GGSW ciphertexts and of the bootstrap key.

Source: /repo/concrete-core/src/commons/crypto/{secret/glwe.rs, glwe/*.rs, ggsw/*.rs, bootstrap/*}.

Containers are flat lists of words, as in the code: a GLWE ciphertext of dimension `k` and polynomial
size `N` is `k` mask polynomials followed by the body polynomial; a level matrix is `k + 1` such rows;
a GGSW ciphertext is its level matrices from level 1 on (ggsw/standard.rs:374-447, ggsw/levels.rs:141-185);
a bootstrap key is its GGSW ciphertexts (bootstrap/standard/mod.rs:553-574). `chunks` is
`subtensor_iter`. A GLWE secret key is its `k` polynomials. Dimension checks are debug assertions; the
functions are modelled for containers of consistent sizes. `none` is a panic.
-/
namespace Verif.Glwe
open Verif.Random

section Ring
variable {R : Type} [CommRing R]

/-- glwe/ciphertext.rs:199-209 `get_mask`. -/
def maskOf (N : Nat) (ct : List R) : List R := ct.take (ct.length - N)
/-- glwe/ciphertext.rs:177-186 `get_body`. -/
def bodyOf (N : Nat) (ct : List R) : List R := ct.drop (ct.length - N)

/-- secret/glwe.rs:964-985 `decrypt_glwe` into the plaintext list `out`. -/
def decryptGlwe (N : Nat) (key out ct : List R) : List R :=
  Poly.subMultisum (zipUpdate (fun _ b => b) out (bodyOf N ct)) (chunks N (maskOf N ct)) (chunks N key)

/-- secret/glwe.rs:1003-1008, the loop of `decrypt_glwe_list` (zip to the shorter). -/
def decryptGlweListAux (N : Nat) (key : List R) : List (List R) → List (List R) → List (List R)
  | o :: os, c :: cs => decryptGlwe N key o c :: decryptGlweListAux N key os cs
  | os, _ => os

/-- secret/glwe.rs:990-1009 `decrypt_glwe_list`; `k` is the GLWE dimension of the list. -/
def decryptGlweList (N k : Nat) (key out cts : List R) : List R :=
  (decryptGlweListAux N key (chunks N out) (chunks ((k + 1) * N) cts)).flatten

/-- glwe/ciphertext.rs:506-533 `fill_with_trivial_encryption`. -/
def fillTrivialGlwe (N : Nat) (ct pts : List R) : List R :=
  (maskOf N ct).map (fun _ => 0) ++ zipUpdate (fun _ p => p) (bodyOf N ct) pts

/-- glwe/ciphertext.rs:54-65 `new_trivial_encryption`: the polynomial size is the number of plaintexts. -/
def newTrivialGlwe (k : Nat) (pts : List R) : List R :=
  fillTrivialGlwe pts.length (List.replicate (pts.length * (k + 1)) 0) pts

/-- glwe/ciphertext.rs:495-502: what becomes of one mask polynomial. -/
def extractPoly (opp : Nat) (p : List R) : List R := Poly.rotateLeft (Poly.negFirst p.reverse opp) opp

/-- glwe/ciphertext.rs:462-504 `fill_lwe_with_sample_extraction`. Panics: empty output, `n ≥ N`
(no such monomial), output mask of another length than the input mask (`copy_from_slice`). -/
def sampleExtract (N : Nat) (ct lwe : List R) (n : Nat) : Option (List R) :=
  if lwe.length = 0 then none
  else match (bodyOf N ct)[n]? with
    | none => none
    | some b =>
      if lwe.length - 1 = (maskOf N ct).length then
        some (((chunks N (maskOf N ct)).map (extractPoly (N - n - 1))).flatten ++ [b])
      else none

/-- secret/glwe.rs:340-345 `into_lwe_secret_key`: the same words. -/
def intoLweSecretKey (key : List R) : List R := key

end Ring

section Words
variable {w : Nat}

/-! ### GLWE encryption -/

/-- secret/glwe.rs:463-491 `fill_glwe_mask_and_body_for_encryption`, for a mask of `n` words and a body of
`N`. -/
def fillMaskAndBody (f : GaussianFn w) (key : List (BitVec w)) (N n : Nat) (msg : List (BitVec w))
    (g : EncGen) : Option (List (BitVec w) × List (BitVec w) × EncGen) :=
  match randomNoiseTensor f N g.noise with
  | none => none
  | some (e, gn) =>
    match rep n (uniform w) g.mask with
    | none => none
    | some (mask, gm) =>
      some (mask, Poly.add (Poly.addMultisum e (chunks N mask) (chunks N key)) msg,
        { mask := gm, noise := gn })

/-- secret/glwe.rs:536-561 `encrypt_glwe` into the ciphertext `out`. -/
def encryptGlwe (f : GaussianFn w) (key : List (BitVec w)) (N : Nat) (out msg : List (BitVec w))
    (g : EncGen) : Option (List (BitVec w) × EncGen) :=
  match fillMaskAndBody f key N (out.length - N) msg g with
  | none => none
  | some (mask, body, g') => some (mask ++ body, g')

/-- secret/glwe.rs:710-729 `encrypt_zero_glwe`. -/
def encryptZeroGlwe (f : GaussianFn w) (key : List (BitVec w)) (N : Nat) (out : List (BitVec w))
    (g : EncGen) : Option (List (BitVec w) × EncGen) :=
  match randomNoiseTensor f N g.noise with
  | none => none
  | some (e, gn) =>
    match rep (out.length - N) (uniform w) g.mask with
    | none => none
    | some (mask, gm) =>
      some (mask ++ Poly.addMultisum e (chunks N mask) (chunks N key), { mask := gm, noise := gn })

/-- secret/glwe.rs:796-801, the loop of `encrypt_glwe_list`. -/
def encryptGlweListAux (f : GaussianFn w) (key : List (BitVec w)) (N : Nat) :
    List (List (BitVec w)) → List (List (BitVec w)) → EncGen →
    Option (List (List (BitVec w)) × EncGen)
  | c :: cs, m :: ms, g =>
    match encryptGlwe f key N c m g with
    | none => none
    | some (ct, g') =>
      match encryptGlweListAux f key N cs ms g' with
      | none => none
      | some (cts, g'') => some (ct :: cts, g'')
  | cs, _, g => some (cs, g)

/-- secret/glwe.rs:778-802 `encrypt_glwe_list`. -/
def encryptGlweList (f : GaussianFn w) (key : List (BitVec w)) (N k : Nat) (out msgs : List (BitVec w))
    (g : EncGen) : Option (List (BitVec w) × EncGen) :=
  match encryptGlweListAux f key N (chunks ((k + 1) * N) out) (chunks N msgs) g with
  | none => none
  | some (cts, g') => some (cts.flatten, g')

/-- secret/glwe.rs:563-590 `encrypt_seeded_glwe_with_existing_generator`: only the body is kept. -/
def encryptSeededGlwe (f : GaussianFn w) (key : List (BitVec w)) (N : Nat) (msg : List (BitVec w))
    (g : EncGen) : Option (List (BitVec w) × EncGen) :=
  match fillMaskAndBody f key N key.length msg g with
  | none => none
  | some (_, body, g') => some (body, g')

/-- secret/glwe.rs:885-901, the loop of `encrypt_seeded_glwe_list`, over the `bodies`. -/
def encryptSeededGlweListAux (f : GaussianFn w) (key : List (BitVec w)) (N : Nat) :
    List (List (BitVec w)) → List (List (BitVec w)) → EncGen →
    Option (List (List (BitVec w)) × EncGen)
  | _ :: bs, m :: ms, g =>
    match encryptSeededGlwe f key N m g with
    | none => none
    | some (b, g') =>
      match encryptSeededGlweListAux f key N bs ms g' with
      | none => none
      | some (bs', g'') => some (b :: bs', g'')
  | bs, _, g => some (bs, g)

/-- secret/glwe.rs:861-902 `encrypt_seeded_glwe_list`; `g` is the generator made from the seed. -/
def encryptSeededGlweList (f : GaussianFn w) (key : List (BitVec w)) (N : Nat)
    (bodies msgs : List (BitVec w)) (g : EncGen) : Option (List (BitVec w) × EncGen) :=
  match encryptSeededGlweListAux f key N (chunks N bodies) (chunks N msgs) g with
  | none => none
  | some (bs, g') => some (bs.flatten, g')

/-- glwe/seeded_ciphertext.rs:301-320 `expand_into_with_existing_generator`: the size of the body is the
polynomial size. -/
def expandGlwe (N : Nat) (out body : List (BitVec w)) (g : Src) : Option (List (BitVec w) × Src) :=
  match rep (out.length - N) (uniform w) g with
  | none => none
  | some (mask, g') => some (mask ++ body, g')

/-- glwe/seeded_list.rs:376-380, and the loop over rows of ggsw/seeded_standard.rs:520-527. -/
def expandGlweListAux (N : Nat) : List (List (BitVec w)) → List (List (BitVec w)) → Src →
    Option (List (List (BitVec w)) × Src)
  | c :: cs, b :: bs, g =>
    match expandGlwe N c b g with
    | none => none
    | some (ct, g') =>
      match expandGlweListAux N cs bs g' with
      | none => none
      | some (cts, g'') => some (ct :: cts, g'')
  | cs, _, g => some (cs, g)

/-- glwe/seeded_list.rs:367-381 `expand_into`. -/
def expandGlweList (N k : Nat) (out bodies : List (BitVec w)) (g : Src) :
    Option (List (BitVec w) × Src) :=
  match expandGlweListAux N (chunks ((k + 1) * N) out) (chunks N bodies) g with
  | none => none
  | some (cts, g') => some (cts.flatten, g')

/-! ### GGSW encryption -/

/-- `Scalar::ONE << (BITS - base_log * level)` (secret/glwe.rs:1114). Modelled for
`1 ≤ base_log * level ≤ BITS` (outside, the subtraction or the shift overflows). -/
def gadget (w b lev : Nat) : BitVec w := 1#w <<< (w - b * lev)

/-- secret/glwe.rs:1026-1047 (and 1155-1186): the polynomial encrypted in row `r`. -/
def rowPlaintext (key : List (BitVec w)) (N k : Nat) (factor : BitVec w) (r : Nat) : List (BitVec w) :=
  if r < k then (block N key r).map (fun x => x * factor)
  else (List.replicate N 0#w).modify 0 (fun x => x + -factor)

/-- secret/glwe.rs:1125-1135: the job for row `r` of a level. `enc` is `encrypt_glwe` or its seeded
variant. -/
def ggswRowJob (enc : List (BitVec w) → EncGen → List (BitVec w) → Option (List (BitVec w)))
    (key : List (BitVec w)) (N k : Nat) (factor : BitVec w) (gens : List EncGen) (r : Nat)
    (row : List (BitVec w)) : Option (List (BitVec w)) :=
  match gens[r]? with
  | none => some row
  | some g => enc (rowPlaintext key N k factor r) g row

/-- secret/glwe.rs:1112-1136 (1222-1246, 1379-1413, 1450-1485): the job for the level matrix of index
`j` (level `j + 1`), with its rows in the order `rowSched`. `rowSize` is the size of a row. -/
def ggswLevelJob (enc : List (BitVec w) → EncGen → List (BitVec w) → Option (List (BitVec w)))
    (rowSize : Nat) (key : List (BitVec w)) (N k b : Nat) (msg : BitVec w) (gens : List EncGen)
    (rowSched : Nat → List Nat) (j : Nat) (matrix : List (BitVec w)) : Option (List (BitVec w)) :=
  match gens[j]? with
  | none => some matrix
  | some g =>
    match g.forkGgswLevelToGlwe w (k + 1) N with
    | (.error _, _) => none
    | (.ok rowGens, _) =>
      (parFor (ggswRowJob enc key N k (-msg * gadget w b (j + 1)) rowGens) (rowSched j)
        (chunks rowSize matrix)).map List.flatten

/-- secret/glwe.rs:1087-1137, 1191-1247, 1355-1414, 1419-1486: the common structure of the four GGSW
encryptions. The number of levels is read from the container. -/
def ggswFill (enc : List (BitVec w) → EncGen → List (BitVec w) → Option (List (BitVec w)))
    (rowSize : Nat) (key : List (BitVec w)) (N k b : Nat) (sched : List Nat) (rowSched : Nat → List Nat)
    (out : List (BitVec w)) (msg : BitVec w) (g : EncGen) : Option (List (BitVec w) × EncGen) :=
  match g.forkGgswToGgswLevels w (out.length / ((k + 1) * rowSize)) (k + 1) N with
  | (.error _, _) => none
  | (.ok gens, g') =>
    match parFor (ggswLevelJob enc rowSize key N k b msg gens rowSched) sched
      (chunks ((k + 1) * rowSize) out) with
    | none => none
    | some ms => some (ms.flatten, g')

/-- The row encryption of the standard GGSW, secret/glwe.rs:1038, 1046. -/
def rowEnc (f : GaussianFn w) (key : List (BitVec w)) (N : Nat) (msg : List (BitVec w)) (g : EncGen)
    (row : List (BitVec w)) : Option (List (BitVec w)) := (encryptGlwe f key N row msg g).map (·.1)

/-- The row encryption of the seeded GGSW, secret/glwe.rs:1167-1185. -/
def rowEncSeeded (f : GaussianFn w) (key : List (BitVec w)) (N : Nat) (msg : List (BitVec w)) (g : EncGen)
    (_row : List (BitVec w)) : Option (List (BitVec w)) := (encryptSeededGlwe f key N msg g).map (·.1)

/-- secret/glwe.rs:1355-1414 `par_encrypt_constant_ggsw`, levels in the order `sched`, rows of level `j`
in the order `rowSched j`. -/
def parEncryptGgsw (f : GaussianFn w) (key : List (BitVec w)) (N k b : Nat) (sched : List Nat)
    (rowSched : Nat → List Nat) (out : List (BitVec w)) (msg : BitVec w) (g : EncGen) :
    Option (List (BitVec w) × EncGen) :=
  ggswFill (rowEnc f key N) ((k + 1) * N) key N k b sched rowSched out msg g

/-- secret/glwe.rs:1087-1137 `encrypt_constant_ggsw`: everything in order. -/
def encryptGgsw (f : GaussianFn w) (key : List (BitVec w)) (N k b : Nat)
    (out : List (BitVec w)) (msg : BitVec w) (g : EncGen) : Option (List (BitVec w) × EncGen) :=
  ggswFill (rowEnc f key N) ((k + 1) * N) key N k b
    (List.range (out.length / ((k + 1) * ((k + 1) * N)))) (fun _ => List.range (k + 1)) out msg g

/-- secret/glwe.rs:1419-1486 `par_encrypt_constant_seeded_ggsw_with_existing_generator`. -/
def parEncryptSeededGgsw (f : GaussianFn w) (key : List (BitVec w)) (N k b : Nat) (sched : List Nat)
    (rowSched : Nat → List Nat) (out : List (BitVec w)) (msg : BitVec w) (g : EncGen) :
    Option (List (BitVec w) × EncGen) :=
  ggswFill (rowEncSeeded f key N) N key N k b sched rowSched out msg g

/-- secret/glwe.rs:1191-1247 `encrypt_constant_seeded_ggsw_with_existing_generator`. -/
def encryptSeededGgsw (f : GaussianFn w) (key : List (BitVec w)) (N k b : Nat)
    (out : List (BitVec w)) (msg : BitVec w) (g : EncGen) : Option (List (BitVec w) × EncGen) :=
  ggswFill (rowEncSeeded f key N) N key N k b
    (List.range (out.length / ((k + 1) * N))) (fun _ => List.range (k + 1)) out msg g

/-- ggsw/seeded_standard.rs:517-528, the loop over the level matrices. -/
def expandGgswAux (N k : Nat) : List (List (BitVec w)) → List (List (BitVec w)) → Src →
    Option (List (List (BitVec w)) × Src)
  | o :: os, b :: bs, g =>
    match expandGlweList N k o b g with
    | none => none
    | some (o', g') =>
      match expandGgswAux N k os bs g' with
      | none => none
      | some (os', g'') => some (o' :: os', g'')
  | os, _, g => some (os, g)

/-- ggsw/seeded_standard.rs:507-529 `expand_into_with_existing_generator`. -/
def expandGgsw (N k : Nat) (out bodies : List (BitVec w)) (g : Src) : Option (List (BitVec w) × Src) :=
  match expandGgswAux N k (chunks ((k + 1) * ((k + 1) * N)) out) (chunks ((k + 1) * N) bodies) g with
  | none => none
  | some (os, g') => some (os.flatten, g')

/-- Adding the gadget value to the first coefficient of the diagonal polynomial of row `r`:
ggsw/standard.rs:522-532 (secret/glwe.rs:1623-1633). -/
def addDiagonal (N : Nat) (d : BitVec w) (rows : List (List (BitVec w))) : List (List (BitVec w)) :=
  rows.mapIdx fun r row => row.modify (r * N) (fun x => x + d)

/-- ggsw/standard.rs:504-534 `fill_with_trivial_encryption`: the masks of all rows are cleared, then the
gadget value of each level is added to the diagonal. The bodies are not cleared. -/
def fillTrivialGgsw (N k b : Nat) (out : List (BitVec w)) (msg : BitVec w) : List (BitVec w) :=
  let cleared := ((chunks ((k + 1) * N) out).map fun row =>
    (maskOf N row).map (fun _ => 0#w) ++ bodyOf N row).flatten
  ((chunks ((k + 1) * ((k + 1) * N)) cleared).mapIdx fun j matrix =>
    (addDiagonal N (msg * gadget w b (j + 1)) (chunks ((k + 1) * N) matrix)).flatten).flatten

/-- ggsw/standard.rs:83-99 `new_trivial_encryption`. -/
def newTrivialGgsw (N k b level : Nat) (msg : BitVec w) : List (BitVec w) :=
  fillTrivialGgsw N k b (List.replicate (level * ((k + 1) * ((k + 1) * N))) 0#w) msg

/-! ### Bootstrap keys -/

/-- bootstrap/standard/mod.rs:236-248 (324-335; seeded_standard/mod.rs:229-241, 322-333): the job for
the GGSW of index `i`. -/
def bskJob (fill : Nat → List (BitVec w) → BitVec w → EncGen → Option (List (BitVec w) × EncGen))
    (lweKey : List (BitVec w)) (gens : List EncGen) (i : Nat) (ggsw : List (BitVec w)) :
    Option (List (BitVec w)) :=
  match lweKey[i]?, gens[i]? with
  | some s, some g => (fill i ggsw s g).map (·.1)
  | _, _ => some ggsw

/-- bootstrap/standard/mod.rs:210-249, 299-336; seeded_standard/mod.rs:198-242, 289-334: the container is
cleared, the generator forked and each GGSW filled. `ggswSize` is the size of a GGSW. -/
def bskFill (fill : Nat → List (BitVec w) → BitVec w → EncGen → Option (List (BitVec w) × EncGen))
    (ggswSize : Nat) (lweKey : List (BitVec w)) (N k level : Nat) (sched : List Nat)
    (out : List (BitVec w)) (g : EncGen) : Option (List (BitVec w) × EncGen) :=
  match g.forkBskToGgsw w lweKey.length level (k + 1) N with
  | (.error _, _) => none
  | (.ok gens, g') =>
    match parFor (bskJob fill lweKey gens) sched (chunks ggswSize (out.map fun _ => 0#w)) with
    | none => none
    | some gs => some (gs.flatten, g')

/-- bootstrap/standard/mod.rs:210-249 `fill_with_new_key`. -/
def fillBsk (f : GaussianFn w) (lweKey key : List (BitVec w)) (N k b level : Nat) (out : List (BitVec w))
    (g : EncGen) : Option (List (BitVec w) × EncGen) :=
  bskFill (fun _ => encryptGgsw f key N k b) (level * ((k + 1) * ((k + 1) * N))) lweKey N k level
    (List.range lweKey.length) out g

/-- bootstrap/standard/mod.rs:299-336 `par_fill_with_new_key`. -/
def parFillBsk (f : GaussianFn w) (lweKey key : List (BitVec w)) (N k b level : Nat) (sched : List Nat)
    (levelSched : Nat → List Nat) (rowSched : Nat → Nat → List Nat) (out : List (BitVec w))
    (g : EncGen) : Option (List (BitVec w) × EncGen) :=
  bskFill (fun i => parEncryptGgsw f key N k b (levelSched i) (rowSched i))
    (level * ((k + 1) * ((k + 1) * N))) lweKey N k level sched out g

/-- bootstrap/seeded_standard/mod.rs:198-242 `fill_with_new_key`; `g` is made from the compression
seed. -/
def fillSeededBsk (f : GaussianFn w) (lweKey key : List (BitVec w)) (N k b level : Nat)
    (out : List (BitVec w)) (g : EncGen) : Option (List (BitVec w) × EncGen) :=
  bskFill (fun _ => encryptSeededGgsw f key N k b) (level * ((k + 1) * N)) lweKey N k level
    (List.range lweKey.length) out g

/-- bootstrap/seeded_standard/mod.rs:289-334 `par_fill_with_new_key`. -/
def parFillSeededBsk (f : GaussianFn w) (lweKey key : List (BitVec w)) (N k b level : Nat)
    (sched : List Nat) (levelSched : Nat → List Nat) (rowSched : Nat → Nat → List Nat)
    (out : List (BitVec w)) (g : EncGen) : Option (List (BitVec w) × EncGen) :=
  bskFill (fun i => parEncryptSeededGgsw f key N k b (levelSched i) (rowSched i))
    (level * ((k + 1) * N)) lweKey N k level sched out g

/-- bootstrap/seeded_standard/mod.rs:712-717, the loop of the expansion. -/
def expandBskAux (N k : Nat) : List (List (BitVec w)) → List (List (BitVec w)) → Src →
    Option (List (List (BitVec w)) × Src)
  | o :: os, b :: bs, g =>
    match expandGgsw N k o b g with
    | none => none
    | some (o', g') =>
      match expandBskAux N k os bs g' with
      | none => none
      | some (os', g'') => some (o' :: os', g'')
  | os, _, g => some (os, g)

/-- bootstrap/seeded_standard/mod.rs:703-718 `expand_into`. -/
def expandBsk (N k level : Nat) (out bodies : List (BitVec w)) (g : Src) :
    Option (List (BitVec w) × Src) :=
  match expandBskAux N k (chunks (level * ((k + 1) * ((k + 1) * N))) out)
    (chunks (level * ((k + 1) * N)) bodies) g with
  | none => none
  | some (os, g') => some (os.flatten, g')

end Words
end Verif.Glwe
