import Verif.Wop.Props5
import Verif.Wop.Examples
/-
The hypotheses of C45, C46 and C51 are satisfiable, and the functions evaluated on concrete inputs.
-/
namespace Verif.Wop
open Verif Verif.Poly Verif.Glwe Verif.Pbs Verif.Decomp Verif.Pks

variable {w : Nat}

/-- A noiseless keyswitch key: trivial encryptions. -/
def trivialKsk (n b l : Nat) (s : List (BitVec w)) : List (BitVec w) :=
  (s.flatMap fun x => (List.range l).map fun j => List.replicate n 0#w ++ [x * ((2 ^ (w - b * (j + 1)) : Nat) : BitVec w)]).flatten

/-- The bits 1, 0, 1 of the message 5 at position 8 of a 12-bit word, with an error of 3: the top bits of the
outputs are 1, 0, 1 (2048 = 2^11). -/
example : extractBits .debug (fun o c => Lwe.keyswitchCiphertext 4 2 2 (trivialKsk 1 4 2 [1#12, 1]) o c)
    (fun o c a => bootstrap (cmuxFft (exactTransform 12 2) 2 1 4 2) 2 1 o c a (bskGgsws (exactTransform 12 2) 2 1 2
      (gadgetGgsw 2 1 4 2 1#12))) 2 1 8 3 2 (List.replicate 6 0#12) [0#12, 0, 5 * 2 ^ 8 + 3] =
    some [0, 2048 + 6, 0, 12, 0, 2048 + 24] := by
  decide +kernel

/-- Finding: in release builds, with `delta = 0` the first bit is not subtracted: the message `01` gives `1/4`
for its second bit, neither `0` nor `1/2`. -/
example : extractBits .release (fun o c => Lwe.keyswitchCiphertext 4 1 2 (trivialKsk 1 4 1 [1#8, 1]) o c)
    (fun o c a => bootstrap (cmuxFft (exactTransform 8 2) 2 1 4 1) 2 1 o c a (bskGgsws (exactTransform 8 2) 2 1 1
      (gadgetGgsw 2 1 4 1 1#8))) 2 1 0 2 2 (List.replicate 4 0#8) [0#8, 0, 1] =
    some [0, 64, 0, 128] := by
  decide +kernel

/-- The condition on the errors in C45, C46 and C51 holds for concrete parameters: 16-bit words, `N = 4`,
LWE key `[1, 0]`, base `2^4` and 3 levels for the bootstrap and the keyswitch, three bits at position 12, an
error of 3 (C45), or a bit at the top position with an error of 100 (C46, C51). -/
example : (∀ i : Nat, i + 1 < 3 →
      ((3 : Int) + i * ((2 : Nat) * epBound 16 4 1 4 3 1 0 0 1)) * 2 ^ (16 - 12 - i - 1) +
        ((4 : Nat) * 2 ^ (16 - 4 * 3 - 1) + (4 : Nat) * (3 : Nat) * 2 ^ (4 - 1) * (0 : Nat)) +
        (1 + weight [1#16, 0]) * 2 ^ (16 - 2 - 2) < 2 ^ (16 - 2)) ∧
    |(100 : Int)| * 2 ^ (16 - 15 - 1) + (1 + weight [1#16, 0]) * 2 ^ (16 - 2 - 2) < 2 ^ (16 - 2) := by
  have hw : weight [1#16, 0] = 1 := by decide +kernel
  rw [hw]
  refine ⟨fun i hi => ?_, by norm_num⟩
  have : i = 0 ∨ i = 1 := by omega
  rcases this with rfl | rfl <;> norm_num [epBound]

/-- Noiseless private functional keys of a circuit bootstrap, for `N' = 2`, `k' = 1` and the output key
`[1, 0]`, that is `S(X) = 1`. -/
def trivialCbsKeys (b l : Nat) (s : List (BitVec w)) : List (BitVec w) :=
  ([-1, 1].flatMap fun f => (s ++ [-1]).flatMap fun x => (List.range l).map fun j =>
    [0#w, 0, f * x * ((2 ^ (w - b * (j + 1)) : Nat) : BitVec w), 0]).flatten

/-- A circuit bootstrap of the bits 0 and 1: `N = 2`, LWE key `[1]`, key after the bootstrap `[1, 1]`, output
key `[1, 0]`. The rows of the output have the phases of a GGSW of the bit, base 4 and two levels:
`-2^10 S`, `2^10`, `-2^8 S`, `2^8`. -/
example : circuitBootstrap .debug
      (fun o c a => bootstrap (cmuxFft (exactTransform 12 2) 2 1 4 2) 2 1 o c a (bskGgsws (exactTransform 12 2) 2 1 2
        (gadgetGgsw 2 1 4 2 1#12)))
      (fun key o c => privateKeyswitchOne 5 2 2 1 key o c) 2 1 2 1 2 2 11 (List.replicate 16 0#12)
      (chunks (3 * (2 * 4)) (trivialCbsKeys 5 2 [1#12, 1])) [0#12, 3] =
      some (List.replicate 16 0) ∧
    circuitBootstrap .debug
      (fun o c a => bootstrap (cmuxFft (exactTransform 12 2) 2 1 4 2) 2 1 o c a (bskGgsws (exactTransform 12 2) 2 1 2
        (gadgetGgsw 2 1 4 2 1#12)))
      (fun key o c => privateKeyswitchOne 5 2 2 1 key o c) 2 1 2 1 2 2 11 (List.replicate 16 0#12)
      (chunks (3 * (2 * 4)) (trivialCbsKeys 5 2 [1#12, 1])) [100#12, 2048 + 90] =
      some [0, 0, 4096 - 1024, 0, 0, 0, 1024, 0, 0, 0, 4096 - 256, 0, 0, 0, 256, 0] := by
  decide +kernel

end Verif.Wop
