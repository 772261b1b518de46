import Verif.Glwe.Props
import Verif.Csprng.Model
/-
C39 (secret key transformations), C41 (range loading checks), C49 (element access).

Source: default_engine/{lwe_to_glwe,glwe_to_lwe}_secret_key_transformation.rs,
specification/parameters.rs, specification/engines/lwe_ciphertext_*loading.rs and *storing.rs (`spec/`),
commons/math/polynomial/list.rs. The loading and storing traits have no implementation in any backend at
this commit: only their checks exist and are modelled.
-/
namespace Verif.Engine
open Verif.Csprng (Build)

/-! ### Secret keys -/

/-- commons/crypto/secret/glwe.rs:27-35 `GlweSecretKey`: the container and the polynomial size. -/
structure GlweKey (R : Type) where
  polySize : Nat
  data : List R
  deriving DecidableEq, Repr

/-- secret/glwe.rs:373-378 `key_size`, the GLWE dimension; panics on polynomial size 0. -/
def GlweKey.dim {R : Type} (k : GlweKey R) : Nat := k.data.length / k.polySize

/-- spec/lwe_to_glwe_secret_key_transformation.rs, the errors. -/
inductive KeyErr where
  | nullPolynomialSize | sizeOnePolynomial | incompatibleLweDimension
  deriving DecidableEq, Repr

/-- spec/lwe_to_glwe_secret_key_transformation.rs:17-34,
default_engine/lwe_to_glwe_secret_key_transformation.rs:40-67 (`binary_from_container` on the container of
the LWE key; its debug check of divisibility follows from the generic check). -/
def lweToGlweKey {R : Type} (k : List R) (polySize : Nat) : Res KeyErr (GlweKey R) :=
  if polySize = 0 then .err .nullPolynomialSize
  else if polySize = 1 then .err .sizeOnePolynomial
  else if k.length % polySize ≠ 0 then .err .incompatibleLweDimension
  else .ok { polySize := polySize, data := k }

/-- default_engine/glwe_to_lwe_secret_key_transformation.rs:43-48 (secret/glwe.rs:340-345
`into_lwe_secret_key`). -/
def glweToLweKey {R : Type} (k : GlweKey R) : List R := Glwe.intoLweSecretKey k.data

/-! ### Ranges -/

/-- parameters.rs:36-45 `LweCiphertextRange` and `is_ordered`: `self.1 <= self.0`. -/
structure Range where
  fst : Nat
  snd : Nat
  deriving DecidableEq, Repr

/-- parameters.rs:41-43. -/
def Range.isOrdered (r : Range) : Bool := decide (r.snd ≤ r.fst)

/-- spec/lwe_ciphertext_loading.rs, lwe_ciphertext_discarding_loading.rs,
lwe_ciphertext_discarding_storing.rs, lwe_ciphertext_vector_loading.rs,
lwe_ciphertext_vector_discarding_loading.rs: the errors. -/
inductive LoadErr where
  | indexTooLarge | lweDimensionMismatch | unorderedInputRange | outOfVectorInputRange
  | unorderedOutputRange | outOfVectorOutputRange | rangeSizeMismatch
  deriving DecidableEq, Repr

/-- spec/lwe_ciphertext_loading.rs:13-25. -/
def checkLoad (count i : Nat) : Res LoadErr Unit :=
  if i ≥ count then .err .indexTooLarge else .ok ()

/-- spec/lwe_ciphertext_discarding_loading.rs:14-31. -/
def checkDiscardLoad (ctDim vecDim count i : Nat) : Res LoadErr Unit :=
  if ctDim ≠ vecDim then .err .lweDimensionMismatch
  else if i ≥ count then .err .indexTooLarge else .ok ()

/-- spec/lwe_ciphertext_discarding_storing.rs:14-32. -/
def checkDiscardStore (vecDim count ctDim i : Nat) : Res LoadErr Unit :=
  if vecDim ≠ ctDim then .err .lweDimensionMismatch
  else if i ≥ count then .err .indexTooLarge else .ok ()

/-- spec/lwe_ciphertext_vector_loading.rs:14-30. -/
def checkVecLoad (count : Nat) (r : Range) : Res LoadErr Unit :=
  if r.isOrdered = false then .err .unorderedInputRange
  else if r.snd ≥ count then .err .outOfVectorInputRange
  else .ok ()

/-- `a - b` on `usize`: an overflow panics in debug builds and wraps modulo 2^64 in release builds. -/
def usizeSub (bld : Build) (a b : Nat) : Option Nat :=
  if b ≤ a then some (a - b)
  else match bld with
    | .debug => none
    | .release => some (2 ^ 64 + a - b)

/-- spec/lwe_ciphertext_vector_discarding_loading.rs:18-55. -/
def checkVecDiscardLoad (bld : Build) (outDim outCount inDim inCount : Nat) (outR inR : Range) :
    Res LoadErr Unit :=
  if inDim ≠ outDim then .err .lweDimensionMismatch
  else if inR.isOrdered = false then .err .unorderedInputRange
  else if outR.isOrdered = false then .err .unorderedOutputRange
  else if outR.snd ≥ outCount then .err .outOfVectorOutputRange
  else if inR.snd ≥ inCount then .err .outOfVectorInputRange
  else match usizeSub bld inR.snd inR.fst, usizeSub bld outR.snd outR.fst with
    | some si, some so => if si ≠ so then .err .rangeSizeMismatch else .ok ()
    | _, _ => .panic

/-! ### Elements of a flat list -/

/-- polynomial/list.rs:149-158 `get_polynomial` (tensor.rs:659-666): `none` is the slice panic. -/
def getPoly {R : Type} (N : Nat) (l : List R) (n : Nat) : Option (List R) :=
  if (n + 1) * N ≤ l.length then some ((l.take ((n + 1) * N)).drop (n * N)) else none

/-- polynomial/list.rs:184-195 `get_mut_polynomial` (tensor.rs:684-694) followed by writing the
coefficients `p` into the returned polynomial with `fill_with_copy` (tensor.rs:771-779). -/
def setPoly {R : Type} (N : Nat) (l : List R) (n : Nat) (p : List R) : Option (List R) :=
  if (n + 1) * N ≤ l.length then
    if p.length = N then some (l.take (n * N) ++ p ++ l.drop ((n + 1) * N)) else none
  else none

/-- A history of writes. -/
def setMany {R : Type} (N : Nat) : List R → List (Nat × List R) → Option (List R)
  | l, [] => some l
  | l, (n, p) :: h =>
    match setPoly N l n p with
    | none => none
    | some l' => setMany N l' h

end Verif.Engine
