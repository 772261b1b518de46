import Verif.Tensor.Model
/-
Specification vocabulary of the tensor operations.
-/
namespace Verif.Tensor

variable {γ : Type}

/-- `res` is `out` with its first `n` elements replaced by the values `v 0`, …, `v (n - 1)`, or a panic when one
of these panics. -/
def Pointwise (n : Nat) (v : Nat → Option γ) (out : List γ) (res : Option (List γ)) : Prop :=
  (∀ l, res = some l → l.length = out.length ∧ (∀ i, i < n → l[i]? = v i) ∧ ∀ i, n ≤ i → l[i]? = out[i]?) ∧
  (res = none ↔ ∃ i, i < n ∧ v i = none)

/-- An operation on `out` and operands of the lengths `lens`. Operands of the length of `out` give `v i` in every
element `i`. For other lengths there is a panic in debug builds; in release builds the elements all tensors have are
written and the others are kept. -/
def Elementwise (m : Build) (lens : List Nat) (v : Nat → Option γ) (out : List γ) (res : Option (List γ)) : Prop :=
  ((∀ n ∈ lens, n = out.length) → Pointwise out.length v out res) ∧
  ((∃ n ∈ lens, n ≠ out.length) →
    match m with
    | .debug => res = none
    | .release => Pointwise (lens.foldl min out.length) v out res)

/-- The word operations on numbers below `2^w`; `none` is a panic. -/
def Op.value (w : Nat) : Op → Nat → Nat → Option Nat
  | .and, a, b => some (a &&& b)
  | .or, a, b => some (a ||| b)
  | .xor, a, b => some (a ^^^ b)
  | .shl, a, b => if b < w then some (a * 2 ^ b % 2 ^ w) else none
  | .shr, a, b => if b < w then some (a / 2 ^ b) else none
  | .add, a, b => some ((a + b) % 2 ^ w)
  | .sub, a, b => some ((a + 2 ^ w - b) % 2 ^ w)
  | .mul, a, b => some (a * b % 2 ^ w)
  | .div, a, b => if b = 0 then none else some (a / b)

end Verif.Tensor
