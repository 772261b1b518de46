import Verif.Entity.CallsSpec
/-
Specification vocabulary for C108.
-/
namespace Verif.Pbs

/-- The polynomial sizes the Fourier engine documents as supported: powers of two of at least 32. -/
def Supported (N : Nat) : Prop := ∃ e, 5 ≤ e ∧ N = 2 ^ e

/-- A GGSW ciphertext of GLWE dimension `k` and `l` levels whose container has the length its dimensions say and fits
in the memory. -/
structure GgswWf {α : Type} (x : Entity.Ggsw α) (k l : Nat) : Prop where
  level : 0 < l
  poly : 0 < x.polySize
  size : x.glweSize = k + 1
  len : x.tensor.length = l * ((k + 1) * ((k + 1) * x.polySize))
  mem : l * ((k + 1) * ((k + 1) * x.polySize)) < 2 ^ 64

end Verif.Pbs
