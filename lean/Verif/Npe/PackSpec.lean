import Verif.Npe.ExtSpec
import Verif.Npe.KeyswitchProps
import Verif.Pks.Spec
/-
Specification for C100: the random experiments of a packing keyswitch and of a private functional keyswitch
of one ciphertext. They extend the one of C98: a row of the keyswitch key now has the noises of the `N`
coefficients of a GLWE ciphertext, so a draw of `Fin N → ε`.
-/
namespace Verif.Npe
open Verif.Poly Verif.Pks Dist

variable {w n N l : Nat} {α κ ε : Type} [Fintype α] [Fintype κ] [Fintype ε]

/-- The noise polynomial of row `(i, j)` of the packing keyswitch key. -/
noncomputable def packErr (e : ε → Int) (ω : KsSample w n l α κ (Fin N → ε)) (i j : Nat) : Rq (BitVec w) N :=
  if h : i < n ∧ j < l then polyOf w fun c => e ((ω.2 ⟨i, h.1⟩).2.2 ⟨j, h.2⟩ c) else 0

/-- `ksk` is a packing keyswitch key of the drawn input key with the drawn noises. -/
def IsPacking (k b : Nat) (X : κ → Int) (e : ε → Int) (key ksk : List (BitVec w))
    (ω : KsSample w n l α κ (Fin N → ε)) : Prop :=
  KeyEnc N k b l n key ksk (fun i => const N ((keyOf X ω).getD i 0)) (packErr e ω)

/-- What is drawn for a private functional keyswitch: as above, and the body of the input together with the
noises of the rows which belong to the body (`Unit`: no key coefficient is drawn for the body). -/
abbrev PfksSample (w n N l : Nat) (α κ ε : Type) :=
  KsSample w n l α κ (Fin N → ε) × (BitVec w × Unit × (Fin l → Fin N → ε))

/-- All draws are independent; the words of the input are uniform. -/
def pfksDist (w n N l : Nat) (d : Dist α) (dk : Dist κ) (de : Dist ε) : Dist (PfksSample w n N l α κ ε) :=
  (ksDist w n l d dk (iid N de)).prod
    ((uniform (BitVec w)).prod ((uniform Unit).prod (iid l (iid N de))))

/-- The input ciphertext: the drawn words. It encrypts the (uniform) message `phase - noise`. -/
def PfksSample.input (ω : PfksSample w n N l α κ ε) : List (BitVec w) :=
  (List.ofFn fun i => (ω.1.2 i).1) ++ [ω.2.1]

/-- The noise polynomial of row `(i, j)`; the rows `n` belong to the body. -/
noncomputable def pfksErr (e : ε → Int) (ω : PfksSample w n N l α κ ε) (i j : Nat) : Rq (BitVec w) N :=
  if i < n then packErr e ω.1 i j
  else if h : j < l then polyOf w fun c => e (ω.2.2.2 ⟨j, h⟩ c) else 0

/-- `ksk` is a private functional keyswitch key of the function `x ↦ R x` for the drawn input key with the
drawn noises: block `i < n` encrypts `R s_i`, block `n` encrypts `-R`. -/
def IsPfks (k b : Nat) (R : Int) (X : κ → Int) (e : ε → Int) (key ksk : List (BitVec w))
    (ω : PfksSample w n N l α κ ε) : Prop :=
  KeyEnc N k b l (n + 1) key ksk
    (fun i => const N ((R : BitVec w) * (keyOf X ω.1 ++ [-1]).getD i 0)) (pfksErr e ω)

end Verif.Npe
