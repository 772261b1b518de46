import Verif.Util.Containers
import Verif.Csprng.Model
import Verif.Engine.Checks
/-
Model of the entities as containers: allocation, construction from a container, accessors, iterators and the
creation / retrieval engines.

Sources, under /repo/concrete-core/src: commons/crypto/{lwe,glwe,ggsw,gsw,bootstrap,encoding,secret} (all the
types holding a `tensor`), commons/math/tensor (`ck_dim_div!`, `subtensor_iter`),
backends/default/implementation/entities/*.rs and the `*_creation.rs`, `*_retrieval.rs` files of
backends/default/implementation/engines/default_engine.

A container is a `List`; `none` is a panic. The shared, mutable and parallel views have the same geometry:
a view is the container itself, and an iteration over mutable parts is a function of the index and of the
part that returns the new content of the part. Memory exhaustion is not modelled.
-/
namespace Verif.Entity

export Verif.Csprng (Build)

variable {α : Type}

/-! ### `usize` and tensor primitives -/

/-- `a * b` on `usize`. -/
def mulU (m : Build) (a b : Nat) : Option Nat :=
  match m with
  | .debug => if a * b < 2 ^ 64 then some (a * b) else none
  | .release => some (a * b % 2 ^ 64)

/-- `a - b` on `usize`. -/
def subU (m : Build) (a b : Nat) : Option Nat :=
  match m with
  | .debug => if b ≤ a then some (a - b) else none
  | .release => some ((a + 2 ^ 64 - b % 2 ^ 64) % 2 ^ 64)

/-- `a / b` on `usize`. -/
def divU (a b : Nat) : Option Nat := if b = 0 then none else some (a / b)

/-- `a * b * c * ...` on `usize`, from left to right. -/
def prodU (m : Build) (ds : List Nat) : Option Nat := ds.foldlM (mulU m) 1

/-- math/tensor/mod.rs:146-162 `ck_dim_div!(len => ds...)`: a `debug_assert!` on each divisor; a divisor may
itself be a product. -/
def ckDimDiv (m : Build) (len : Nat) (ds : List (List Nat)) : Option Unit :=
  match m with
  | .debug => ds.forM fun d => do
      let d ← prodU .debug d
      if d ≠ 0 ∧ len % d = 0 then some () else none
  | .release => some ()

/-- tensor/tensor.rs:350-359, 377-387, 407-418, 442-454 `subtensor_iter` and its mutable and parallel
versions. -/
def subtensors (m : Build) (size : Nat) (l : List α) : Option (List (List α)) :=
  if size = 0 then none
  else match m with
  | .debug => if l.length % size = 0 then some (chunks size l) else none
  | .release => some (chunks size l)

/-- tensor/tensor.rs:407-418 `subtensor_iter_mut`, each part being rewritten by `f`. -/
def updateSubtensors (m : Build) (size : Nat) (f : Nat → List α → List α) (l : List α) :
    Option (List α) := do
  let parts ← subtensors m size l
  some (parts.mapIdx f).flatten

/-! ### LWE -/

/-- lwe/list.rs:17-20 `LweList`, and with it `LwePublicKey`. -/
structure LweList (α : Type) where
  tensor : List α
  lweSize : Nat
  deriving DecidableEq, Repr

/-- lwe/list.rs:40-45 `allocate`. -/
def LweList.allocate (m : Build) (v : α) (lweSize lweCount : Nat) : Option (LweList α) := do
  let n ← prodU m [lweSize, lweCount]
  some ⟨List.replicate n v, lweSize⟩

/-- lwe/list.rs:132-139 `from_container`. -/
def LweList.fromContainer (m : Build) (cont : List α) (lweSize : Nat) : Option (LweList α) := do
  ckDimDiv m cont.length [[lweSize]]
  some ⟨cont, lweSize⟩

/-- lwe/list.rs:177-183 `count`. -/
def LweList.count (m : Build) (x : LweList α) : Option Nat := do
  ckDimDiv m x.tensor.length [[x.lweSize]]
  divU x.tensor.length x.lweSize

/-- lwe/list.rs:214-219 `mask_size`; entities/lwe_ciphertext_vector.rs:17-19 `lwe_dimension`. -/
def LweList.maskSize (m : Build) (x : LweList α) : Option Nat := subU m x.lweSize 1

/-- lwe/list.rs:240-250, 253-265 `ciphertext_iter`. -/
def LweList.ciphertextIter (m : Build) (x : LweList α) : Option (List (List α)) := do
  ckDimDiv m x.tensor.length [[x.lweSize]]
  subtensors m x.lweSize x.tensor

/-- lwe/list.rs:286-297, 300-312 `ciphertext_iter_mut`. -/
def LweList.updateCiphertexts (m : Build) (f : Nat → List α → List α) (x : LweList α) :
    Option (LweList α) := do
  ckDimDiv m x.tensor.length [[x.lweSize]]
  let t ← updateSubtensors m x.lweSize f x.tensor
  some { x with tensor := t }

/-- lwe/list.rs:336-348, 379-392 `sublist_iter`. -/
def LweList.sublistIter (m : Build) (x : LweList α) (subLen : Nat) : Option (List (LweList α)) := do
  ckDimDiv m x.tensor.length [[x.lweSize], [subLen]]
  let size ← prodU m [x.lweSize, subLen]
  let parts ← subtensors m size x.tensor
  parts.mapM fun p => LweList.fromContainer m p x.lweSize

/-- lwe/keyswitch.rs:33-38 `LweKeyswitchKey`. -/
structure KeyswitchKey (α : Type) where
  tensor : List α
  baseLog : Nat
  levelCount : Nat
  lweSize : Nat
  deriving DecidableEq, Repr

/-- lwe/keyswitch.rs:78-94 `allocate`. -/
def KeyswitchKey.allocate (m : Build) (v : α) (levels baseLog inDim outDim : Nat) :
    Option (KeyswitchKey α) := do
  let n ← prodU m [levels, outDim + 1, inDim]
  some ⟨List.replicate n v, baseLog, levels, outDim + 1⟩

/-- lwe/keyswitch.rs:132-149 `from_container`. -/
def KeyswitchKey.fromContainer (m : Build) (cont : List α) (baseLog levels outDim : Nat) :
    Option (KeyswitchKey α) := do
  ckDimDiv m cont.length [[outDim + 1], [levels]]
  some ⟨cont, baseLog, levels, outDim + 1⟩

/-- lwe/keyswitch.rs:197-202 `after_key_size`. -/
def KeyswitchKey.outputDimension (m : Build) (x : KeyswitchKey α) : Option Nat := subU m x.lweSize 1

/-- lwe/keyswitch.rs:248-253 `before_key_size`. -/
def KeyswitchKey.inputDimension (m : Build) (x : KeyswitchKey α) : Option Nat := do
  let d ← prodU m [x.lweSize, x.levelCount]
  divU x.tensor.length d

/-- lwe/keyswitch.rs:429-441, 469-481 `bit_decomp_iter`, then 731-736 `into_lwe_list`. -/
def KeyswitchKey.bitDecompIter (m : Build) (x : KeyswitchKey α) : Option (List (LweList α)) := do
  ckDimDiv m x.tensor.length [[x.lweSize], [x.levelCount]]
  let size ← prodU m [x.levelCount, x.lweSize]
  let parts ← subtensors m size x.tensor
  some (parts.map fun p => ⟨p, x.lweSize⟩)

/-- lwe/keyswitch.rs:469-481 `bit_decomp_iter_mut`. -/
def KeyswitchKey.updateBitDecomp (m : Build) (f : Nat → List α → List α) (x : KeyswitchKey α) :
    Option (KeyswitchKey α) := do
  ckDimDiv m x.tensor.length [[x.lweSize], [x.levelCount]]
  let size ← prodU m [x.levelCount, x.lweSize]
  let t ← updateSubtensors m size f x.tensor
  some { x with tensor := t }

/-- lwe/seeded_keyswitch.rs:30-37 `LweSeededKeyswitchKey`. -/
structure SeededKeyswitchKey (α : Type) where
  tensor : List α
  baseLog : Nat
  levelCount : Nat
  lweSize : Nat
  seed : Nat
  deriving DecidableEq, Repr

/-- lwe/seeded_keyswitch.rs:81-98 `allocate`. -/
def SeededKeyswitchKey.allocate (m : Build) (zero : α) (levels baseLog inDim outDim seed : Nat) :
    Option (SeededKeyswitchKey α) := do
  let n ← prodU m [levels, inDim]
  some ⟨List.replicate n zero, baseLog, levels, outDim + 1, seed⟩

/-- lwe/seeded_keyswitch.rs:158-163 `input_lwe_dimension`. -/
def SeededKeyswitchKey.inputDimension (x : SeededKeyswitchKey α) : Option Nat :=
  divU x.tensor.length x.levelCount

/-- lwe/seeded_keyswitch.rs:126-131 `output_lwe_dimension`. -/
def SeededKeyswitchKey.outputDimension (m : Build) (x : SeededKeyswitchKey α) : Option Nat :=
  subU m x.lweSize 1

/-- lwe/seeded_keyswitch.rs:352-371, 378-397 `bit_decomp_iter`: the bodies of each block. -/
def SeededKeyswitchKey.bitDecompIter (m : Build) (x : SeededKeyswitchKey α) :
    Option (List (List α)) := do
  ckDimDiv m x.tensor.length [[x.levelCount]]
  subtensors m x.levelCount x.tensor

/-! ### GLWE -/

/-- glwe/ciphertext.rs:17-20 `GlweCiphertext`. -/
structure GlweCiphertext (α : Type) where
  tensor : List α
  polySize : Nat
  deriving DecidableEq, Repr

/-- glwe/ciphertext.rs:37-47 `allocate`. -/
def GlweCiphertext.allocate (m : Build) (v : α) (polySize size : Nat) : Option (GlweCiphertext α) := do
  let n ← prodU m [polySize, size]
  some ⟨List.replicate n v, polySize⟩

/-- glwe/ciphertext.rs:86-91 `from_container`. -/
def GlweCiphertext.fromContainer (cont : List α) (polySize : Nat) : GlweCiphertext α := ⟨cont, polySize⟩

/-- glwe/ciphertext.rs:128-133 `size`. -/
def GlweCiphertext.size (x : GlweCiphertext α) : Option Nat := divU x.tensor.length x.polySize

/-- glwe/ciphertext.rs:145-150 `mask_size`; entities/glwe_ciphertext.rs:17-19 `glwe_dimension`. -/
def GlweCiphertext.maskSize (m : Build) (x : GlweCiphertext α) : Option Nat := do
  let s ← x.size
  subU m s 1

/-- glwe/ciphertext.rs:177-186, 225-233 `get_body`. -/
def GlweCiphertext.getBody (m : Build) (x : GlweCiphertext α) : Option (List α) := do
  let k ← x.maskSize m
  let i ← prodU m [k, x.polySize]
  if i ≤ x.tensor.length then some (x.tensor.drop i) else none

/-- glwe/ciphertext.rs:199-209, 251-261 `get_mask`. -/
def GlweCiphertext.getMask (m : Build) (x : GlweCiphertext α) : Option (List α) := do
  let k ← x.maskSize m
  let i ← prodU m [k, x.polySize]
  if i ≤ x.tensor.length then some (x.tensor.take i) else none

/-- glwe/ciphertext.rs:351-406 `as_polynomial_list` and its iterators (math/polynomial/list.rs:222-279). -/
def GlweCiphertext.polynomialIter (m : Build) (x : GlweCiphertext α) : Option (List (List α)) :=
  subtensors m x.polySize x.tensor

/-- glwe/list.rs:16-20 `GlweList`. -/
structure GlweList (α : Type) where
  tensor : List α
  glweSize : Nat
  polySize : Nat
  deriving DecidableEq, Repr

/-- glwe/list.rs:46-62 `allocate`. -/
def GlweList.allocate (m : Build) (v : α) (polySize glweDim count : Nat) : Option (GlweList α) := do
  let n ← prodU m [polySize, glweDim + 1, count]
  some ⟨List.replicate n v, glweDim + 1, polySize⟩

/-- glwe/list.rs:81-96 `from_container`. -/
def GlweList.fromContainer (m : Build) (cont : List α) (glweDim polySize : Nat) :
    Option (GlweList α) := do
  ckDimDiv m cont.length [[glweDim + 1], [polySize]]
  some ⟨cont, glweDim + 1, polySize⟩

/-- glwe/list.rs:113-119 `ciphertext_count`. -/
def GlweList.count (m : Build) (x : GlweList α) : Option Nat := do
  ckDimDiv m x.tensor.length [[x.glweSize], [x.polySize]]
  let d ← prodU m [x.glweSize, x.polySize]
  divU x.tensor.length d

/-- glwe/list.rs:177-182 `glwe_dimension`. -/
def GlweList.glweDimension (m : Build) (x : GlweList α) : Option Nat := subU m x.glweSize 1

/-- glwe/list.rs:204-216, 219-232 `ciphertext_iter`. -/
def GlweList.ciphertextIter (m : Build) (x : GlweList α) : Option (List (GlweCiphertext α)) := do
  ckDimDiv m x.tensor.length [[x.glweSize], [x.polySize]]
  let size ← prodU m [x.glweSize, x.polySize]
  let parts ← subtensors m size x.tensor
  some (parts.map fun p => GlweCiphertext.fromContainer p x.polySize)

/-- glwe/list.rs:258-270 `ciphertext_iter_mut`. -/
def GlweList.updateCiphertexts (m : Build) (f : Nat → List α → List α) (x : GlweList α) :
    Option (GlweList α) := do
  ckDimDiv m x.tensor.length [[x.glweSize], [x.polySize]]
  let size ← prodU m [x.glweSize, x.polySize]
  let t ← updateSubtensors m size f x.tensor
  some { x with tensor := t }

/-- glwe/seeded_list.rs:17-22 `GlweSeededList`. -/
structure GlweSeededList (α : Type) where
  tensor : List α
  glweDim : Nat
  polySize : Nat
  seed : Nat
  deriving DecidableEq, Repr

/-- glwe/seeded_list.rs:57-69 `allocate`. -/
def GlweSeededList.allocate (m : Build) (zero : α) (polySize glweDim count seed : Nat) :
    Option (GlweSeededList α) := do
  let n ← prodU m [polySize, count]
  some ⟨List.replicate n zero, glweDim, polySize, seed⟩

/-- glwe/seeded_list.rs:120-126 `ciphertext_count`. -/
def GlweSeededList.count (m : Build) (x : GlweSeededList α) : Option Nat := do
  ckDimDiv m x.tensor.length [[x.polySize]]
  divU x.tensor.length x.polySize

/-- glwe/seeded_list.rs:260-270, 308-322 `body_iter`: `chunks` panics for a null size. -/
def GlweSeededList.bodyIter (x : GlweSeededList α) : Option (List (List α)) :=
  if x.polySize = 0 then none else some (chunks x.polySize x.tensor)

/-- secret/glwe.rs:33-40 `GlweSecretKey`. -/
structure GlweSecretKey (α : Type) where
  tensor : List α
  polySize : Nat
  deriving DecidableEq, Repr

/-- secret/glwe.rs:63-73 `generate_binary` and the other kinds: the key holds `poly_size * dimension`
coefficients. -/
def GlweSecretKey.generate (m : Build) (draw : Nat → List α) (dim polySize : Nat) :
    Option (GlweSecretKey α) := do
  let n ← prodU m [polySize, dim]
  some ⟨draw n, polySize⟩

/-- secret/glwe.rs:373-378 `key_size`. -/
def GlweSecretKey.keySize (x : GlweSecretKey α) : Option Nat := divU x.tensor.length x.polySize

/-! ### GGSW -/

/-- ggsw/levels.rs:230-234 `GgswLevelRow`. -/
structure GgswLevelRow (α : Type) where
  tensor : List α
  polySize : Nat
  level : Nat
  deriving DecidableEq, Repr

/-- ggsw/levels.rs:256-267 `from_container`. -/
def GgswLevelRow.fromContainer (m : Build) (cont : List α) (polySize level : Nat) :
    Option (GgswLevelRow α) := do
  ckDimDiv m cont.length [[polySize]]
  some ⟨cont, polySize, level⟩

/-- ggsw/levels.rs:347-352 `into_glwe`. -/
def GgswLevelRow.intoGlwe (x : GgswLevelRow α) : GlweCiphertext α := ⟨x.tensor, x.polySize⟩

/-- ggsw/levels.rs:11-16 `GgswLevelMatrix`. -/
structure GgswLevelMatrix (α : Type) where
  tensor : List α
  polySize : Nat
  glweSize : Nat
  level : Nat
  deriving DecidableEq, Repr

/-- ggsw/levels.rs:39-56 `from_container`. -/
def GgswLevelMatrix.fromContainer (m : Build) (cont : List α) (polySize glweSize level : Nat) :
    Option (GgswLevelMatrix α) := do
  ckDimDiv m cont.length [[glweSize], [polySize]]
  some ⟨cont, polySize, glweSize, level⟩

/-- ggsw/levels.rs:141-150, 173-185, 213-226 `row_iter`. -/
def GgswLevelMatrix.rowIter (m : Build) (x : GgswLevelMatrix α) :
    Option (List (GgswLevelRow α)) := do
  let size ← prodU m [x.polySize, x.glweSize]
  let parts ← subtensors m size x.tensor
  parts.mapM fun p => GgswLevelRow.fromContainer m p x.polySize x.level

/-- ggsw/standard.rs:23-28 `StandardGgswCiphertext`. -/
structure Ggsw (α : Type) where
  tensor : List α
  polySize : Nat
  glweSize : Nat
  baseLog : Nat
  deriving DecidableEq, Repr

/-- ggsw/standard.rs:54-76 `allocate`. -/
def Ggsw.allocate (m : Build) (v : α) (polySize glweSize levels baseLog : Nat) : Option (Ggsw α) := do
  let n ← prodU m [levels, glweSize, glweSize, polySize]
  some ⟨List.replicate n v, polySize, glweSize, baseLog⟩

/-- ggsw/standard.rs:123-140 `from_container`. -/
def Ggsw.fromContainer (m : Build) (cont : List α) (glweSize polySize baseLog : Nat) :
    Option (Ggsw α) := do
  ckDimDiv m cont.length [[glweSize], [polySize], [glweSize, glweSize]]
  some ⟨cont, polySize, glweSize, baseLog⟩

/-- ggsw/standard.rs:213-225 `decomposition_level_count`. -/
def Ggsw.levelCount (m : Build) (x : Ggsw α) : Option Nat := do
  ckDimDiv m x.tensor.length [[x.glweSize], [x.polySize], [x.glweSize, x.glweSize]]
  let d ← prodU m [x.glweSize, x.glweSize, x.polySize]
  divU x.tensor.length d

/-- ggsw/standard.rs:272-281, 310-317 `as_glwe_list`. -/
def Ggsw.asGlweList (m : Build) (x : Ggsw α) : Option (GlweList α) := do
  let dim ← subU m x.glweSize 1
  GlweList.fromContainer m x.tensor dim x.polySize

/-- ggsw/standard.rs:374-394, 427-447, 481-502 `level_matrix_iter`. -/
def Ggsw.levelMatrixIter (m : Build) (x : Ggsw α) : Option (List (GgswLevelMatrix α)) := do
  let size ← prodU m [x.polySize, x.glweSize, x.glweSize]
  let parts ← subtensors m size x.tensor
  parts.zipIdx.mapM fun (p, index) =>
    GgswLevelMatrix.fromContainer m p x.polySize x.glweSize (index + 1)

/-- bootstrap/standard/mod.rs:27-33 `StandardBootstrapKey`. -/
structure BootstrapKey (α : Type) where
  tensor : List α
  polySize : Nat
  glweSize : Nat
  levelCount : Nat
  baseLog : Nat
  deriving DecidableEq, Repr

/-- bootstrap/standard/mod.rs:62-87 `allocate`. -/
def BootstrapKey.allocate (m : Build) (v : α) (glweSize polySize levels baseLog keySize : Nat) :
    Option (BootstrapKey α) := do
  let n ← prodU m [keySize, levels, glweSize, glweSize, polySize]
  some ⟨List.replicate n v, polySize, glweSize, levels, baseLog⟩

/-- bootstrap/standard/mod.rs:114-137 `from_container`. -/
def BootstrapKey.fromContainer (m : Build) (cont : List α) (glweSize polySize levels baseLog : Nat) :
    Option (BootstrapKey α) := do
  ckDimDiv m cont.length [[levels], [glweSize, glweSize], [polySize]]
  some ⟨cont, polySize, glweSize, levels, baseLog⟩

/-- bootstrap/standard/mod.rs:514-527 `key_size`. -/
def BootstrapKey.keySize (m : Build) (x : BootstrapKey α) : Option Nat := do
  ckDimDiv m x.tensor.length [[x.polySize], [x.glweSize, x.glweSize], [x.levelCount]]
  let d ← prodU m [x.glweSize, x.glweSize, x.polySize, x.levelCount]
  divU x.tensor.length d

/-- bootstrap/standard/mod.rs:553-574, 607-630, 656-677 `ggsw_iter`. -/
def BootstrapKey.ggswIter (m : Build) (x : BootstrapKey α) : Option (List (Ggsw α)) := do
  let size ← prodU m [x.glweSize, x.glweSize, x.polySize, x.levelCount]
  let parts ← subtensors m size x.tensor
  parts.mapM fun p => Ggsw.fromContainer m p x.glweSize x.polySize x.baseLog

/-- bootstrap/standard/mod.rs:656-677 `ggsw_iter_mut`. -/
def BootstrapKey.updateGgsw (m : Build) (f : Nat → List α → List α) (x : BootstrapKey α) :
    Option (BootstrapKey α) := do
  let size ← prodU m [x.glweSize, x.glweSize, x.polySize, x.levelCount]
  let t ← updateSubtensors m size f x.tensor
  some { x with tensor := t }

/-- bootstrap/standard/mod.rs:702-711, 737-748 `poly_iter`. -/
def BootstrapKey.polyIter (m : Build) (x : BootstrapKey α) : Option (List (List α)) :=
  subtensors m x.polySize x.tensor

/-- ggsw/seeded_standard.rs:19-25 `StandardGgswSeededCiphertext`. -/
structure GgswSeeded (α : Type) where
  tensor : List α
  glweSize : Nat
  polySize : Nat
  baseLog : Nat
  seed : Nat
  deriving DecidableEq, Repr

/-- ggsw/seeded_standard.rs:115-134 `from_container`. -/
def GgswSeeded.fromContainer (m : Build) (cont : List α) (polySize glweSize baseLog seed : Nat) :
    Option (GgswSeeded α) := do
  ckDimDiv m cont.length [[polySize], [glweSize]]
  some ⟨cont, glweSize, polySize, baseLog, seed⟩

/-- ggsw/seeded_standard.rs:61-78 `allocate`. -/
def GgswSeeded.allocate (m : Build) (zero : α) (polySize glweSize levels baseLog seed : Nat) :
    Option (GgswSeeded α) := do
  let n ← prodU m [levels, glweSize, polySize]
  GgswSeeded.fromContainer m (List.replicate n zero) polySize glweSize baseLog seed

/-- ggsw/seeded_standard.rs:225-234 `decomposition_level_count`. -/
def GgswSeeded.levelCount (m : Build) (x : GgswSeeded α) : Option Nat := do
  ckDimDiv m x.tensor.length [[x.glweSize], [x.polySize]]
  let d ← prodU m [x.glweSize, x.polySize]
  divU x.tensor.length d

/-- ggsw/seeded_standard.rs:349-372, 414-438, 482-505 `level_matrix_iter`, then
ggsw/seeded_levels.rs:68-85 `row_iter`: level, row, body. -/
def GgswSeeded.levelRows (m : Build) (x : GgswSeeded α) : Option (List (Nat × List (List α))) := do
  let size ← prodU m [x.polySize, x.glweSize]
  let parts ← subtensors m size x.tensor
  parts.zipIdx.mapM fun (p, index) => do
    ckDimDiv m p.length [[x.polySize]]
    let rows ← subtensors m x.polySize p
    some (index + 1, rows)

/-- bootstrap/seeded_standard/mod.rs:29-36 `StandardSeededBootstrapKey`. -/
structure SeededBootstrapKey (α : Type) where
  tensor : List α
  polySize : Nat
  glweSize : Nat
  levelCount : Nat
  baseLog : Nat
  seed : Nat
  deriving DecidableEq, Repr

/-- bootstrap/seeded_standard/mod.rs:67-92 `allocate`. -/
def SeededBootstrapKey.allocate (m : Build) (zero : α)
    (glweSize polySize levels baseLog keySize seed : Nat) : Option (SeededBootstrapKey α) := do
  let n ← prodU m [keySize, levels, glweSize, polySize]
  some ⟨List.replicate n zero, polySize, glweSize, levels, baseLog, seed⟩

/-- bootstrap/seeded_standard/mod.rs:454-466 `key_size`. -/
def SeededBootstrapKey.keySize (m : Build) (x : SeededBootstrapKey α) : Option Nat := do
  ckDimDiv m x.tensor.length [[x.polySize], [x.glweSize], [x.levelCount]]
  let d ← prodU m [x.glweSize, x.polySize, x.levelCount]
  divU x.tensor.length d

/-- bootstrap/seeded_standard/mod.rs:517-539, 572-599, 627-649 `ggsw_iter`. -/
def SeededBootstrapKey.ggswIter (m : Build) (x : SeededBootstrapKey α) :
    Option (List (GgswSeeded α)) := do
  let size ← prodU m [x.glweSize, x.polySize, x.levelCount]
  let parts ← subtensors m size x.tensor
  parts.mapM fun p => GgswSeeded.fromContainer m p x.polySize x.glweSize x.baseLog x.seed

/-! ### Packing keyswitch keys -/

/-- glwe/keyswitch.rs:33-39 `LwePackingKeyswitchKey` and 639-645
`LwePrivateFunctionalPackingKeyswitchKey`. -/
structure PackingKey (α : Type) where
  tensor : List α
  baseLog : Nat
  levelCount : Nat
  glweSize : Nat
  polySize : Nat
  deriving DecidableEq, Repr

/-- glwe/keyswitch.rs:80-101 `allocate` of a packing keyswitch key. -/
def PackingKey.allocate (m : Build) (v : α) (levels baseLog inDim outDim polySize : Nat) :
    Option (PackingKey α) := do
  let n ← prodU m [levels, outDim + 1, polySize, inDim]
  some ⟨List.replicate n v, baseLog, levels, outDim + 1, polySize⟩

/-- glwe/keyswitch.rs:688-709 `allocate` of a private functional packing keyswitch key: one more input
element, for the body. -/
def PackingKey.allocatePrivate (m : Build) (v : α) (levels baseLog inDim outDim polySize : Nat) :
    Option (PackingKey α) := do
  let n ← prodU m [levels, outDim + 1, polySize, inDim + 1]
  some ⟨List.replicate n v, baseLog, levels, outDim + 1, polySize⟩

/-- glwe/keyswitch.rs:145-164, 757-776 `from_container`. -/
def PackingKey.fromContainer (m : Build) (cont : List α) (baseLog levels outDim polySize : Nat) :
    Option (PackingKey α) := do
  ckDimDiv m cont.length [[outDim + 1, polySize], [levels]]
  some ⟨cont, baseLog, levels, outDim + 1, polySize⟩

/-- glwe/keyswitch.rs:186-188, 798-800 `output_glwe_key_dimension`. -/
def PackingKey.outputDimension (m : Build) (x : PackingKey α) : Option Nat := subU m x.glweSize 1

/-- glwe/keyswitch.rs:235-245 `input_lwe_key_dimension`. -/
def PackingKey.inputDimension (m : Build) (x : PackingKey α) : Option Nat := do
  let d ← prodU m [x.glweSize, x.polySize, x.levelCount]
  divU x.tensor.length d

/-- glwe/keyswitch.rs:847-858 `input_lwe_key_dimension` of the private functional key. -/
def PackingKey.inputDimensionPrivate (m : Build) (x : PackingKey α) : Option Nat := do
  let d ← prodU m [x.glweSize, x.polySize, x.levelCount]
  let n ← divU x.tensor.length d
  subU m n 1

/-- glwe/keyswitch.rs:432-446, 474-490, 1242-1256, 1286-1302, 1305-1322 `bit_decomp_iter`, then
1685-1691 `into_glwe_list`. -/
def PackingKey.bitDecompIter (m : Build) (x : PackingKey α) : Option (List (GlweList α)) := do
  ckDimDiv m x.tensor.length [[x.glweSize, x.polySize], [x.levelCount]]
  let size ← prodU m [x.levelCount, x.glweSize, x.polySize]
  let parts ← subtensors m size x.tensor
  some (parts.map fun p => ⟨p, x.glweSize, x.polySize⟩)

/-- glwe/keyswitch.rs:1697-1704 `LwePrivateFunctionalPackingKeyswitchKeyList`. -/
structure PackingKeyList (α : Type) where
  tensor : List α
  baseLog : Nat
  levelCount : Nat
  inputSize : Nat
  glweSize : Nat
  polySize : Nat
  deriving DecidableEq, Repr

/-- glwe/keyswitch.rs:1751-1775 `allocate`. -/
def PackingKeyList.allocate (m : Build) (v : α) (levels baseLog inDim outDim polySize count : Nat) :
    Option (PackingKeyList α) := do
  let n ← prodU m [levels, outDim + 1, polySize, inDim + 1, count]
  some ⟨List.replicate n v, baseLog, levels, inDim + 1, outDim + 1, polySize⟩

/-- glwe/keyswitch.rs:1916-1926 `fpksk_count`. -/
def PackingKeyList.count (m : Build) (x : PackingKeyList α) : Option Nat := do
  let single ← prodU m [x.glweSize, x.polySize, x.levelCount, x.inputSize]
  ckDimDiv m x.tensor.length [[single]]
  divU x.tensor.length single

/-- glwe/keyswitch.rs:1929-1953, 1956-1986, 1990-2021 `fpksk_iter`. -/
def PackingKeyList.keyIter (m : Build) (x : PackingKeyList α) : Option (List (PackingKey α)) := do
  let single ← prodU m [x.glweSize, x.polySize, x.levelCount, x.inputSize]
  ckDimDiv m x.tensor.length [[single]]
  let parts ← subtensors m single x.tensor
  parts.mapM fun p => do
    let dim ← subU m x.glweSize 1
    PackingKey.fromContainer m p x.baseLog x.levelCount dim x.polySize

end Verif.Entity
