import Verif.Entity.Model
/-
Specification vocabulary for C109.
-/
namespace Verif.Wop

/-- A list of `c` private functional packing keyswitch keys from the LWE dimension `n` to the GLWE dimension `k` whose
container has the length its dimensions say and fits in the memory. -/
structure KeyListWf {α : Type} (x : Entity.PackingKeyList α) (n k c : Nat) : Prop where
  level : 0 < x.levelCount
  poly : 0 < x.polySize
  inSize : x.inputSize = n + 1
  size : x.glweSize = k + 1
  len : x.tensor.length = c * ((n + 1) * (x.levelCount * ((k + 1) * x.polySize)))
  mem : (n + 1) * (x.levelCount * ((k + 1) * x.polySize)) < 2 ^ 64

end Verif.Wop
