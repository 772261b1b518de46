import Verif.Entity.Model
/-
Specification vocabulary for C105: entities whose container has the length their dimensions say and fits in the
memory (the products of dimensions are less than `2^64`). These are the entities the library builds.
-/
namespace Verif.Entity
variable {α : Type}

/-- A GLWE ciphertext of dimension `k`. -/
structure GlweCiphertext.Wf (x : GlweCiphertext α) (k : Nat) : Prop where
  poly : 0 < x.polySize
  len : x.tensor.length = (k + 1) * x.polySize
  mem : (k + 1) * x.polySize < 2 ^ 64

/-- A list of `c` LWE ciphertexts of dimension `n`. -/
structure LweList.Wf (x : LweList α) (n c : Nat) : Prop where
  size : x.lweSize = n + 1
  len : x.tensor.length = c * (n + 1)
  mem : n + 1 < 2 ^ 64

/-- A packing keyswitch key of `n` blocks for the output dimension `k`. -/
structure PackingKey.Wf (x : PackingKey α) (n k : Nat) : Prop where
  level : 0 < x.levelCount
  poly : 0 < x.polySize
  size : x.glweSize = k + 1
  len : x.tensor.length = n * (x.levelCount * ((k + 1) * x.polySize))
  mem : x.levelCount * ((k + 1) * x.polySize) < 2 ^ 64
  count : n < 2 ^ 64

/-- A bootstrap key for the input dimension `n` and the output dimension `k`. -/
structure BootstrapKey.Wf (x : BootstrapKey α) (n k : Nat) : Prop where
  level : 0 < x.levelCount
  poly : 0 < x.polySize
  size : x.glweSize = k + 1
  len : x.tensor.length = n * (x.levelCount * ((k + 1) * ((k + 1) * x.polySize)))
  mem : x.levelCount * ((k + 1) * ((k + 1) * x.polySize)) < 2 ^ 64

/-- A keyswitch key from dimension `n` to dimension `n'`. -/
structure KeyswitchKey.Wf (x : KeyswitchKey α) (n n' : Nat) : Prop where
  level : 0 < x.levelCount
  size : x.lweSize = n' + 1
  len : x.tensor.length = n * (x.levelCount * (n' + 1))
  mem : x.levelCount * (n' + 1) < 2 ^ 64

end Verif.Entity
