import Verif.Lwe.Spec
import Verif.Util.BitVecRing
import Verif.Util.Containers
/-
What the rows of a GSW ciphertext encrypt.
-/
namespace Verif.Gsw

variable {w : Nat}

/-- Under the key `s`, row `r` of a level carries the message times `-s_r`, the last row the message
itself. -/
def rowFactor (s : List (BitVec w)) (r : Nat) : BitVec w := if r < s.length then -s.getD r 0 else 1

/-- `gsw` encrypts `m` under `s` with `l` levels of base `2^b` and noises `e`: row `r` of level `j + 1`
has phase `m · 2^(w - b (j+1)) · rowFactor s r + e j r`. -/
def Encrypts (b l : Nat) (s : List (BitVec w)) (m : BitVec w) (e : Nat → Nat → BitVec w)
    (gsw : List (BitVec w)) : Prop :=
  gsw.length = l * ((s.length + 1) * (s.length + 1)) ∧
  ∀ j, j < l → ∀ r, r < s.length + 1 →
    Lwe.phase s (block (s.length + 1) gsw (j * (s.length + 1) + r)) =
      m * ((2 ^ (w - b * (j + 1)) : Nat) : BitVec w) * rowFactor s r + e j r

end Verif.Gsw
