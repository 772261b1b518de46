import Verif.Lwe.Model
/-
Keyswitch of a list of LWE ciphertexts: concrete-core/src/commons/crypto/lwe/keyswitch.rs:578-595.
-/
namespace Verif.Lwe
open Verif.Csprng (Build)

variable {w : Nat}

/-- lwe/keyswitch.rs:548-549: the dimension checks of `keyswitch_ciphertext`, compiled in debug builds only (`ck_dim_eq!`).
The input dimension of the key is its length divided by the size of a block (252-257); a division by zero panics. -/
def keyswitchChecks (bld : Build) (l lweSize : Nat) (ksk after before : List (BitVec w)) : Bool :=
  match bld with
  | .release => true
  | .debug => lweSize * l ≠ 0 ∧ ksk.length / (lweSize * l) = before.length - 1 ∧ lweSize - 1 = after.length - 1

/-- lwe/keyswitch.rs:590-594, the loop of `keyswitch_list`: the lists of ciphertexts are zipped to the shorter; the remaining
outputs keep their content. `none` is a panic. -/
def keyswitchLoop (bld : Build) (b l lweSize : Nat) (ksk : List (BitVec w)) :
    List (List (BitVec w)) → List (List (BitVec w)) → Option (List (List (BitVec w)))
  | c :: cs, o :: os =>
    if keyswitchChecks bld l lweSize ksk o c then
      match keyswitchCiphertext b l lweSize ksk o c with
      | none => none
      | some r => (keyswitchLoop bld b l lweSize ksk cs os).map (r :: ·)
    else none
  | _, os => some os

/-- lwe/keyswitch.rs:578-595 `keyswitch_list`; `inSize` and `outSize` are the LWE sizes of the two lists, whose lengths
are multiples of them. The counts are compared in debug builds only. -/
def keyswitchList (bld : Build) (b l lweSize : Nat) (ksk : List (BitVec w)) (outSize inSize : Nat)
    (out inp : List (BitVec w)) : Option (List (BitVec w)) :=
  if bld = .debug ∧ inp.length / inSize ≠ out.length / outSize then none
  else (keyswitchLoop bld b l lweSize ksk (chunks inSize inp) (chunks outSize out)).map List.flatten

end Verif.Lwe
